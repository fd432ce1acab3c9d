import Verif.Py.Ast
/-!
# Reading source text

A parser for the part of Python in which `/repo/src/genieutils` is written: from the lines of a file to the syntax trees of `Verif/Py/Ast.lean`.  It follows
the Python Language Reference (chapter 2, lexical analysis; chapters 6–8, expressions and statements), for what occurs: identifiers, decimal and
hexadecimal integers with underscores, floats whose fraction is zero, strings and bytes in single quotes, comments, implicit and explicit line joining,
indentation; conditional expressions, `and`, `not`, comparison chains, `+ - *`, unary `-`, attributes, calls, subscripts and slices, tuples, lists,
generator expressions and list comprehensions; assignments, `if`/`elif`/`else`, `for`, `return`, `raise`, `assert`; functions, classes, imports.
Annotations have no effect and are skipped.  Everything else is refused (`none`), never misread.

A line is given as the number whose base-256 digits are its characters, as identifiers are (`n!"…"`).
-/

namespace Genie.Src.Text

/-- The characters of a line (of at most 500 characters). -/
def charsAux : Nat → Nat → List Nat → List Nat
  | 0, _, acc => acc
  | fuel + 1, n, acc =>
    match n with
    | 0 => acc
    | n + 1 => charsAux fuel ((n + 1) / 256) ((n + 1) % 256 :: acc)

/-- The characters of a line. -/
def chars (line : Nat) : List Nat := charsAux 500 line []

/-! ## tokens -/

/-- Tokens: identifiers and keywords, numbers, strings, bytes, and operators and delimiters. -/
inductive Tok where
  | name (x : Name)
  | int (i : Nat)
  | float (bits : Nat)
  | str (cs : List Nat)
  | bytes (b : List Nat)
  | op (c : Nat)
  /-- something that is not in this part of the language -/
  | bad

/-- The operators and delimiters of Python (the most frequent ones first), and the backslash. -/
def operators : List Nat :=
  [n!".", n!",", n!"(", n!")", n!"=", n!":", n!"[", n!"]", n!"\\", n!"-", n!">", n!"<", n!"@", n!"|", n!"+", n!"*",
   n!"->", n!"+=", n!"-=", n!"*=", n!"==", n!"!=", n!"<=", n!">=",
   n!"/", n!"%", n!"&", n!"^", n!"~", n!";", n!"**", n!"//", n!"<<", n!">>", n!":=", n!"/=", n!"%=", n!"@=", n!"&=", n!"|=", n!"^=",
   n!"**=", n!"//=", n!"<<=", n!">>="]

def isOperator (c : Nat) : List Nat → Bool
  | [] => false
  | d :: ds => cond (Nat.beq c d) true (isOperator c ds)

/-- Where in a token we are. -/
inductive Mode where
  | blank
  | name (x : Nat)
  /-- after `0` at the beginning of a number -/
  | zero
  | int (i : Nat)
  /-- after an underscore in a number -/
  | under (i : Nat)
  /-- after `0x` -/
  | hexStart
  | hex (i : Nat)
  /-- after the point of a number with integer part `i`; only zeros so far -/
  | frac (i : Nat)
  /-- in a string; the characters so far, last first -/
  | str (cs : List Nat)
  | bytes (b : List Nat)
  /-- after a backslash in bytes -/
  | escape (b : List Nat)
  /-- after `\0` in bytes -/
  | zeroEscape (b : List Nat)
  | op (c : Nat)
  /-- after the closing quote of a string or bytes -/
  | full (t : Tok)
  /-- in something that is not a token -/
  | bad
  | comment

def isLower (c : Nat) : Bool := Nat.ble 97 c && Nat.ble c 122
def isUpper (c : Nat) : Bool := Nat.ble 65 c && Nat.ble c 90
def isDigit (c : Nat) : Bool := Nat.ble 48 c && Nat.ble c 57

/-- `[A-Za-z_]` -/
def isLetter (c : Nat) : Bool := isLower c || isUpper c || Nat.beq c 95

/-- The value of a hexadecimal digit. -/
def hexVal (c : Nat) : Option Nat :=
  cond (isDigit c) (some (c - 48)) (cond (Nat.ble 65 c && Nat.ble c 70) (some (c - 55)) (cond (Nat.ble 97 c && Nat.ble c 102) (some (c - 87)) none))

/-- The beginning of a token. -/
def Mode.start (c : Nat) : Mode :=
  cond (Nat.beq c 32) .blank (cond (isLetter c) (.name c) (cond (isDigit c) (cond (Nat.beq c 48) .zero (.int (c - 48)))
    (cond (Nat.beq c 39) (.str []) (cond (Nat.beq c 35) .comment (cond (Nat.ble 33 c && Nat.ble c 127) (.op c) .bad)))))

/-- The token that has ended, before the others. -/
def Mode.finish (m : Mode) (ts : List Tok) : List Tok :=
  match m with
  | .blank => ts
  | .comment => ts
  | .name x => .name x :: ts
  | .zero => .int 0 :: ts
  | .int i => .int i :: ts
  | .hex i => .int i :: ts
  | .frac i => cond (Nat.beq i 0) (.float 0 :: ts) (cond (Nat.beq i 1) (.float 4607182418800017408 :: ts) (.bad :: ts))
  | .op c => cond (isOperator c operators) (.op c :: ts) (.bad :: ts)
  | .full t => t :: ts
  | _ => .bad :: ts

/-- After the digits of a number with value `i`; `c`: the next character. -/
def afterDigits (i : Nat) (c : Nat) : Option Mode :=
  cond (Nat.beq c 95) (some (.under i)) (cond (Nat.beq c 46) (some (.frac i)) (cond (isLetter c) (some .bad) none))

/-- One more digit of a number: none but zeros after zeros. -/
def moreDigits (i : Nat) (c : Nat) : Mode := cond (Nat.beq i 0 && !Nat.beq c 48) .bad (.int (i * 10 + (c - 48)))

/-- The next character: it belongs to the same token, or (`none`) it begins a new one. -/
def Mode.step (m : Mode) (c : Nat) : Option Mode :=
  match m with
  | .blank => none
  | .comment => some .comment
  | .bad => some .bad
  | .name x =>
    cond (isLetter c || isDigit c) (some (.name (x * 256 + c)))
      (cond (Nat.beq c 39) (cond (Nat.beq x 98) (some (.bytes [])) (some .bad)) none)
  | .zero => cond (Nat.beq c 120) (some .hexStart) (cond (isDigit c) (some (moreDigits 0 c)) (afterDigits 0 c))
  | .int i => cond (isDigit c) (some (moreDigits i c)) (afterDigits i c)
  | .under i => cond (isDigit c) (some (moreDigits i c)) (some .bad)
  | .hexStart =>
    match hexVal c with
    | some d => some (.hex d)
    | none => some .bad
  | .hex i =>
    match hexVal c with
    | some d => some (.hex (i * 16 + d))
    | none => cond (isLetter c || Nat.beq c 46) (some .bad) none
  | .frac i => cond (Nat.beq c 48) (some (.frac i)) (cond (isDigit c || isLetter c) (some .bad) none)
  | .str cs => cond (Nat.beq c 39) (some (.full (.str cs.reverse))) (cond (Nat.beq c 92 || Nat.ble 128 c) (some .bad) (some (.str (c :: cs))))
  | .bytes b =>
    cond (Nat.beq c 39) (some (.full (.bytes b.reverse)))
      (cond (Nat.beq c 92) (some (.escape b)) (cond (Nat.ble 128 c) (some .bad) (some (.bytes (c :: b)))))
  | .escape b => cond (Nat.beq c 48) (some (.zeroEscape (0 :: b))) (some .bad)
  | .zeroEscape b =>
    cond (Nat.beq c 39) (some (.full (.bytes b.reverse)))
      (cond (Nat.beq c 92) (some (.escape b)) (cond (Nat.ble 128 c || (Nat.ble 48 c && Nat.ble c 55)) (some .bad) (some (.bytes (c :: b)))))
  | .op d => cond (Nat.beq d 92) (some .bad) (cond (Nat.ble c 127 && isOperator (d * 256 + c) operators) (some (.op (d * 256 + c))) none)
  | .full _ => cond (Nat.beq c 39) (some .bad) none

/-- The tokens of a line. -/
def lex : Mode → List Nat → List Tok
  | m, [] => m.finish []
  | m, c :: cs =>
    match m.step c with
    | some m' => lex m' cs
    | none => m.finish (lex (Mode.start c) cs)

/-- How far a line is indented. -/
def indent : List Nat → Nat
  | [] => 0
  | c :: cs => cond (Nat.beq c 32) (indent cs + 1) 0

/-- A logical line: its indentation and its tokens. -/
abbrev Line := Nat × List Tok

/-- The closing brackets that are missing after these tokens, if they were missing before them; the innermost one first.  (`none`: a bracket does not match.) -/
def brackets : List Tok → List Nat → Option (List Nat)
  | [], s => some s
  | .op c :: ts, s =>
    cond (Nat.beq c 40) (brackets ts (41 :: s)) (cond (Nat.beq c 91) (brackets ts (93 :: s))
      (cond (Nat.beq c 41 || Nat.beq c 93)
        (match s with
        | [] => none
        | d :: s => cond (Nat.beq c d) (brackets ts s) none)
        (brackets ts s)))
  | _ :: ts, s => brackets ts s

/-- Is the last token a backslash? -/
def slashed : List Tok → Bool
  | [] => false
  | [.op c] => Nat.beq c 92
  | _ :: ts => slashed ts

/-- Without the backslash at the end. -/
def unslash : List Tok → List Tok
  | [] => []
  | [.op c] => cond (Nat.beq c 92) [] [.op c]
  | t :: ts => t :: unslash ts

/-- Physical lines to logical lines: a line goes on on the next one inside of brackets and after a backslash; blank lines and comments do not count.
`pending`: the line that goes on, if there is one: its indentation, its tokens, the brackets that are missing. -/
def logical : List Nat → Option (Nat × List Tok × List Nat) → List Line
  | [], none => []
  | [], some _ => [(0, [.bad])]
  | l :: ls, none =>
    match lex .blank (chars l) with
    | [] => logical ls none
    | t :: ts =>
      match brackets (t :: ts) [], slashed (t :: ts) with
      | none, _ => [(0, [.bad])]
      | some [], false => (indent (chars l), t :: ts) :: logical ls none
      | some s, _ => logical ls (some (indent (chars l), unslash (t :: ts), s))
  | l :: ls, some (i, sofar, s) =>
    match lex .blank (chars l) with
    | ts =>
      match brackets ts s, slashed ts with
      | none, _ => [(0, [.bad])]
      | some [], false => (i, sofar ++ ts) :: logical ls none
      | some s, _ => logical ls (some (i, sofar ++ unslash ts, s))

/-! ## expressions -/

/-- Is the token this operator? -/
def Tok.is (t : Tok) (c : Nat) : Bool :=
  match t with
  | .op d => Nat.beq d c
  | _ => false

/-- Is the token this keyword? -/
def Tok.isName (t : Tok) (x : Name) : Bool :=
  match t with
  | .name y => Nat.beq y x
  | _ => false

/-- The keywords of Python: no identifiers. -/
def keywords : List Name :=
  [n!"False", n!"None", n!"True", n!"and", n!"as", n!"assert", n!"async", n!"await", n!"break", n!"class", n!"continue", n!"def", n!"del",
   n!"elif", n!"else", n!"except", n!"finally", n!"for", n!"from", n!"global", n!"if", n!"import", n!"in", n!"is", n!"lambda", n!"nonlocal",
   n!"not", n!"or", n!"pass", n!"raise", n!"return", n!"try", n!"while", n!"with", n!"yield"]

def isKeyword (x : Name) : List Name → Bool
  | [] => false
  | y :: ys => cond (Nat.beq x y) true (isKeyword x ys)

/-- What to parse. -/
inductive Goal where
  /-- `e if c else e`, or a comparison with `and` and `not` -/
  | expr
  /-- without `if`/`else` -/
  | andTest
  | notTest
  | comparison
  /-- the rest `op e op e …` of a comparison -/
  | compareTail
  | sum
  /-- the rest `+ e - e …` of a sum that begins with `l` -/
  | sumTail (l : Ex)
  | product
  | productTail (l : Ex)
  | unary
  /-- the attributes, calls and subscripts after `e` -/
  | trailers (e : Ex)
  | atom
  /-- arguments up to the closing bracket, which is removed; after a named one (`named`) there may be no other without name -/
  | args (named : Bool)
  /-- after an argument: a comma and others, or the closing bracket -/
  | moreArgs (named : Bool)
  /-- elements of a tuple or list up to this closing bracket, which is removed -/
  | items (close : Nat)
  /-- after an element: a comma and others, or the closing bracket -/
  | moreItems (close : Nat)
  /-- after `e for`: the rest of a generator expression or list comprehension up to this closing bracket, which is removed -/
  | generator (close : Nat) (e : Ex)
  /-- after the opening bracket of a call: one generator expression, or arguments -/
  | callArgs
  /-- after `[` at the beginning of an atom -/
  | listDisplay

/-- The result of a parser: the tree, and the tokens that are left. -/
abbrev Res := Option (Ex × List Tok)

/-- First `r`, then `k`. -/
def Res.then (r : Res) (k : Ex → List Tok → Option α) : Option α :=
  match r with
  | none => none
  | some (e, ts) => k e ts

/-- The next token must be this operator. -/
def expect (c : Nat) (ts : List Tok) (k : List Tok → Option α) : Option α :=
  match ts with
  | [] => none
  | t :: ts => cond (t.is c) (k ts) none

/-- The next token must be this keyword. -/
def expectName (x : Name) (ts : List Tok) (k : List Tok → Option α) : Option α :=
  match ts with
  | [] => none
  | t :: ts => cond (t.isName x) (k ts) none

/-- The next token must be an identifier. -/
def identifier (ts : List Tok) (k : Name → List Tok → Option α) : Option α :=
  match ts with
  | .name x :: ts => cond (isKeyword x keywords) none (k x ts)
  | _ => none

/-- Is the next token this operator? -/
def nextIs (c : Nat) (ts : List Tok) : Bool :=
  match ts with
  | [] => false
  | t :: _ => t.is c

/-- Is the next token this keyword? -/
def nextName (x : Name) (ts : List Tok) : Bool :=
  match ts with
  | [] => false
  | t :: _ => t.isName x

/-- A comparison operator at the beginning: `== != < <= > >=`, `is`, `is not`. -/
def cmpOp (ts : List Tok) : Option (Cmp × List Tok) :=
  match ts with
  | .op c :: ts =>
    cond (Nat.beq c n!"==") (some (.eq, ts)) (cond (Nat.beq c n!"!=") (some (.ne, ts)) (cond (Nat.beq c n!"<") (some (.lt, ts))
      (cond (Nat.beq c n!"<=") (some (.le, ts)) (cond (Nat.beq c n!">") (some (.gt, ts)) (cond (Nat.beq c n!">=") (some (.ge, ts)) none)))))
  | .name x :: ts =>
    cond (Nat.beq x n!"is")
      (match ts with
      | t :: ts' => cond (t.isName n!"not") (some (.isNot, ts')) (some (.is, ts))
      | [] => none)
      none
  | _ => none

/-- The characters of a string. -/
def ofChars (cs : List Nat) : String := String.ofList (cs.map Char.ofNat)

/-- Does an argument with a name begin here (`x=…`)? -/
def keywordArg (ts : List Tok) : Bool :=
  match ts with
  | .name x :: .op c :: _ => Nat.beq c n!"=" && !isKeyword x keywords
  | _ => false

/-- Parse, with `p` for the phrases inside of this one. -/
def parseStep (p : Goal → List Tok → Res) (g : Goal) (ts : List Tok) : Res :=
  match g with
  | .expr =>
    (p .andTest ts).then fun a ts =>
      cond (nextName n!"if" ts)
        ((p .andTest ts.tail).then fun c ts => expectName n!"else" ts fun ts => (p .expr ts).then fun b ts => some (.ifExp c a b, ts))
        (some (a, ts))
  | .andTest =>
    (p .notTest ts).then fun a ts =>
      cond (nextName n!"and" ts) ((p .andTest ts.tail).then fun b ts => some (.and a b, ts)) (some (a, ts))
  | .notTest =>
    cond (nextName n!"not" ts) ((p .notTest ts.tail).then fun a ts => some (.not a, ts)) (p .comparison ts)
  | .comparison =>
    (p .sum ts).then fun l ts => (p .compareTail ts).then fun tail ts =>
      match tail with
      | .cmpNil => some (l, ts)
      | tail => some (.compare l tail, ts)
  | .compareTail =>
    match cmpOp ts with
    | none => some (.cmpNil, ts)
    | some (op, ts) => (p .sum ts).then fun r ts => (p .compareTail ts).then fun tail ts => some (.cmp op r tail, ts)
  | .sum => (p .product ts).then fun l ts => p (.sumTail l) ts
  | .sumTail l =>
    cond (nextIs n!"+" ts) ((p .product ts.tail).then fun r ts => p (.sumTail (.bin .add l r)) ts)
      (cond (nextIs n!"-" ts) ((p .product ts.tail).then fun r ts => p (.sumTail (.bin .sub l r)) ts) (some (l, ts)))
  | .product => (p .unary ts).then fun l ts => p (.productTail l) ts
  | .productTail l =>
    cond (nextIs n!"*" ts) ((p .unary ts.tail).then fun r ts => p (.productTail (.bin .mul l r)) ts) (some (l, ts))
  | .unary =>
    cond (nextIs n!"-" ts) ((p .unary ts.tail).then fun e ts => some (.neg e, ts))
      ((p .atom ts).then fun e ts => p (.trailers e) ts)
  | .trailers e =>
    cond (nextIs n!"." ts) (identifier ts.tail fun a ts => p (.trailers (.attr e a)) ts)
      (cond (nextIs n!"(" ts) ((p .callArgs ts.tail).then fun as ts => p (.trailers (.call e as)) ts)
        (cond (nextIs n!"[" ts)
          ((p .expr ts.tail).then fun i ts =>
            cond (nextIs n!":" ts) ((p .expr ts.tail).then fun j ts => expect n!"]" ts fun ts => p (.trailers (.slice e i j)) ts)
              (expect n!"]" ts fun ts => p (.trailers (.index e i)) ts))
          (some (e, ts))))
  | .atom =>
    match ts with
    | .name x :: ts =>
      cond (Nat.beq x n!"None") (some (.none, ts)) (cond (Nat.beq x n!"True") (some (.bool true, ts)) (cond (Nat.beq x n!"False") (some (.bool false, ts))
        (cond (isKeyword x keywords) none (some (.name x, ts)))))
    | .int i :: ts => some (.int i, ts)
    | .float b :: ts => some (.float b, ts)
    | .str cs :: ts => some (.str (ofChars cs), ts)
    | .bytes b :: ts => some (.bytes b, ts)
    | .op c :: ts =>
      cond (Nat.beq c n!"(")
        ((p .expr ts).then fun e ts =>
          cond (nextIs n!")" ts) (some (e, ts.tail))
            (cond (nextIs n!"," ts) ((p (.items n!")") ts.tail).then fun es ts => some (.tuple (.arg e es), ts)) none))
        (cond (Nat.beq c n!"[") (p .listDisplay ts) none)
    | _ => none
  | .callArgs =>
    cond (nextIs n!")" ts || nextIs n!"*" ts || keywordArg ts) (p (.args false) ts)
      ((p .expr ts).then fun e ts =>
        cond (nextName n!"for" ts) ((p (.generator n!")" e) ts.tail).then fun g ts => some (.arg g .argNil, ts))
          ((p (.moreArgs false) ts).then fun rest ts => some (.arg e rest, ts)))
  | .args named =>
    cond (nextIs n!")" ts) (some (.argNil, ts.tail))
      (cond (nextIs n!"*" ts)
        ((p .expr ts.tail).then fun e ts => (p (.moreArgs named) ts).then fun rest ts => some (.star e rest, ts))
        (cond (keywordArg ts)
          (identifier ts fun x ts => (p .expr ts.tail).then fun e ts => (p (.moreArgs true) ts).then fun rest ts => some (.kw x e rest, ts))
          (cond named none ((p .expr ts).then fun e ts => (p (.moreArgs false) ts).then fun rest ts => some (.arg e rest, ts)))))
  | .moreArgs named => cond (nextIs n!"," ts) (p (.args named) ts.tail) (expect n!")" ts fun ts => some (.argNil, ts))
  | .items close =>
    cond (nextIs close ts) (some (.argNil, ts.tail))
      (cond (nextIs n!"*" ts)
        ((p .expr ts.tail).then fun e ts => (p (.moreItems close) ts).then fun rest ts => some (.star e rest, ts))
        ((p .expr ts).then fun e ts => (p (.moreItems close) ts).then fun rest ts => some (.arg e rest, ts)))
  | .moreItems close => cond (nextIs n!"," ts) (p (.items close) ts.tail) (expect close ts fun ts => some (.argNil, ts))
  | .generator close e =>
    identifier ts fun x ts => expectName n!"in" ts fun ts => (p .andTest ts).then fun it ts =>
      cond (nextName n!"if" ts)
        ((p .andTest ts.tail).then fun c ts => expect close ts fun ts => some (.compIf e x it c, ts))
        (expect close ts fun ts => some (.comp e x it, ts))
  | .listDisplay =>
    cond (nextIs n!"]" ts || nextIs n!"*" ts) ((p (.items n!"]") ts).then fun es ts => some (.list es, ts))
      ((p .expr ts).then fun e ts =>
        cond (nextName n!"for" ts) (p (.generator n!"]" e) ts.tail)
          ((p (.moreItems n!"]") ts).then fun rest ts => some (.list (.arg e rest), ts)))

/-- Parse.  (`fuel` bounds the number of nested calls.) -/
def parse : Nat → Goal → List Tok → Res
  | 0, _, _ => none
  | n + 1, g, ts => parseStep (parse n) g ts

/-- An expression that is all of the tokens. -/
def wholeExpr (n : Nat) (ts : List Tok) (k : Ex → Option α) : Option α :=
  (parse n .expr ts).then fun e ts =>
    match ts with
    | [] => k e
    | _ => none

/-- One expression, or a tuple without brackets, that is all of the tokens. -/
def returned (n : Nat) (ts : List Tok) (k : Ex → Option α) : Option α :=
  (parse n .expr ts).then fun e ts =>
    match ts with
    | [] => k e
    | t :: ts =>
      cond (t.is n!",")
        ((parse n (.items n!")") (ts ++ [.op n!")"])).then fun es ts =>
          match ts with
          | [] => k (.tuple (.arg e es))
          | _ => none)
        none

/-- An expression that is followed by a colon at the end of the line. -/
def headExpr (n : Nat) (ts : List Tok) (k : Ex → Option α) : Option α :=
  (parse n .expr ts).then fun e ts => expect n!":" ts fun ts =>
    match ts with
    | [] => k e
    | _ => none

/-! ## statements -/

/-- Skip tokens up to one of the given operators or a closing bracket outside of brackets, or to the end.  (`bad`: a bracket is still open there.) -/
def skipTokens (stop : Nat → Bool) : Nat → List Tok → List Tok
  | 0, [] => []
  | _ + 1, [] => [.bad]
  | d, .op c :: ts =>
    cond (Nat.beq c n!"(" || Nat.beq c n!"[") (skipTokens stop (d + 1) ts)
      (match d with
      | 0 => cond (stop c || Nat.beq c n!")" || Nat.beq c n!"]") (.op c :: ts) (skipTokens stop 0 ts)
      | d + 1 => cond (Nat.beq c n!")" || Nat.beq c n!"]") (skipTokens stop d ts) (skipTokens stop (d + 1) ts))
  | _, .bad :: _ => [.bad]
  | d, _ :: ts => skipTokens stop d ts

/-- Skip an annotation, which is not empty: up to one of the given operators outside of brackets, or to the end. -/
def skipAnnotation (stop : Nat → Bool) (ts : List Tok) : List Tok :=
  match ts with
  | [] => [.bad]
  | .op c :: ts => cond (stop c || Nat.beq c n!")" || Nat.beq c n!"]") [.bad] (skipTokens stop 0 (.op c :: ts))
  | ts => skipTokens stop 0 ts

/-- The other names of `x, y, … =` (with the equals sign). -/
def targets : List Tok → (List Name → List Tok → Option α) → Option α
  | .name x :: .op c :: ts, k =>
    cond (isKeyword x keywords) none (cond (Nat.beq c n!",") (targets ts fun xs ts => k (x :: xs) ts) (cond (Nat.beq c n!"=") (k [x] ts) none))
  | _, _ => none

/-- A statement on a line of its own that does not end the block: with the rest of the block. -/
def simple (n : Nat) (ts : List Tok) (k : (St → St) → Option α) : Option α :=
  cond (nextName n!"assert" ts) (wholeExpr n ts.tail fun e => k (.assert e))
    ((parse n .expr ts).then fun t ts =>
      match ts with
      | [] => k (.expr t)
      | .op c :: ts =>
        cond (Nat.beq c n!"=")
          (wholeExpr n ts fun e =>
            match t with
            | .name x => k (.assign x e)
            | .attr o a => k (.setAttr o a e)
            | _ => none)
          (match t with
          | .name x =>
            cond (Nat.beq c n!":") (expect n!"=" (skipAnnotation (Nat.beq n!"=") ts) fun ts => wholeExpr n ts fun e => k (.assign x e))
              (cond (Nat.beq c n!"+=") (wholeExpr n ts fun e => k (.aug x .add e))
                (cond (Nat.beq c n!"-=") (wholeExpr n ts fun e => k (.aug x .sub e))
                  (cond (Nat.beq c n!"*=") (wholeExpr n ts fun e => k (.aug x .mul e))
                    (cond (Nat.beq c n!",") (targets ts fun xs ts => wholeExpr n ts fun e => k (.unpack (x :: xs) e)) none))))
          | .attr o a => cond (Nat.beq c n!":") (expect n!"=" (skipAnnotation (Nat.beq n!"=") ts) fun ts => wholeExpr n ts fun e => k (.setAttr o a e)) none
          | _ => none)
      | _ => none)

/-- What to do with a line of a block. -/
inductive Work where
  /-- the block that begins on this line, which is indented that far -/
  | block (ind : Nat)
  /-- a block that is indented further than this -/
  | deeper (ind : Nat)
  /-- what follows `if`: `else`, `elif`, or nothing; at this indentation -/
  | orElse (ind : Nat)

/-- First `r`, then `k`. -/
def thenSt (r : Option (St × List Line)) (k : St → List Line → Option α) : Option α :=
  match r with
  | none => none
  | some (s, ls) => k s ls

/-- The block ends here. -/
def blockEnds (ind : Nat) (ls : List Line) : Bool :=
  match ls with
  | [] => true
  | (i, _) :: _ => Nat.ble (i + 1) ind

/-- Parse blocks. -/
def block : Nat → Work → List Line → Option (St × List Line)
  | 0, _, _ => none
  | n + 1, w, ls =>
    match w with
    | .deeper ind =>
      match ls with
      | [] => none
      | (i, _) :: _ => cond (Nat.ble i ind) none (block n (.block i) ls)
    | .orElse ind =>
      match ls with
      | [] => some (.done, ls)
      | (i, ts) :: ls' =>
        cond (Nat.beq i ind && nextName n!"else" ts) (cond (nextIs n!":" ts.tail && ts.tail.tail.isEmpty) (block n (.deeper ind) ls') none)
          (cond (Nat.beq i ind && nextName n!"elif" ts)
            (headExpr n ts.tail fun c => thenSt (block n (.deeper ind) ls') fun a ls => thenSt (block n (.orElse ind) ls) fun b ls => some (.ite c a b .done, ls))
            (some (.done, ls)))
    | .block ind =>
      match ls with
      | [] => some (.done, [])
      | (i, ts) :: ls' =>
        cond (Nat.ble (i + 1) ind) (some (.done, ls))
          (cond (Nat.beq i ind)
            (cond (nextName n!"return" ts) (cond (blockEnds ind ls') (returned n ts.tail fun e => some (.ret e, ls')) none)
              (cond (nextName n!"raise" ts) (cond (blockEnds ind ls') (wholeExpr n ts.tail fun e => some (.raise e, ls')) none)
                (cond (nextName n!"if" ts)
                  (headExpr n ts.tail fun c => thenSt (block n (.deeper ind) ls') fun a ls => thenSt (block n (.orElse ind) ls) fun b ls =>
                    thenSt (block n (.block ind) ls) fun rest ls => some (.ite c a b rest, ls))
                  (cond (nextName n!"for" ts)
                    (identifier ts.tail fun x ts => expectName n!"in" ts fun ts => headExpr n ts fun it => thenSt (block n (.deeper ind) ls') fun body ls =>
                      thenSt (block n (.block ind) ls) fun rest ls => some (.forIn x it body rest, ls))
                    (simple n ts fun st => thenSt (block n (.block ind) ls') fun rest ls => some (st rest, ls))))))
            none)

/-! ## functions, classes, modules -/

/-- The parameters, up to the closing bracket: names, annotations, default values. -/
def params : Nat → List Tok → Option (List (Name × Ex) × List Tok)
  | 0, _ => none
  | n + 1, ts =>
    cond (nextIs n!")" ts) (some ([], ts.tail))
      (identifier ts fun x ts =>
        match cond (nextIs n!":" ts) (skipAnnotation (fun c => Nat.beq c n!"," || Nat.beq c n!"=" || Nat.beq c n!")") ts.tail) ts with
        | ts =>
          match cond (nextIs n!"=" ts) (parse n .expr ts.tail) (some (.argNil, ts)) with
          | none => none
          | some (d, ts) =>
            cond (nextIs n!"," ts)
              (match params n ts.tail with
              | none => none
              | some (ps, ts) => some ((x, d) :: ps, ts))
              (expect n!")" ts fun ts => some ([(x, d)], ts)))

/-- `def f(…) -> …:` with its body; the decorator was `kind`. -/
def function (n : Nat) (kind : Kind) (ind : Nat) (ts : List Tok) (ls : List Line) : Option (Fun × List Line) :=
  identifier ts fun f ts => expect n!"(" ts fun ts =>
    match params n ts with
    | none => none
    | some (ps, ts) =>
      match cond (nextIs n!"->" ts) (skipAnnotation (Nat.beq n!":") ts.tail) ts with
      | [.op c] => cond (Nat.beq c n!":") (thenSt (block n (.deeper ind) ls) fun body ls => some (⟨f, kind, ps, body⟩, ls)) none
      | _ => none

/-- The decorators of methods. -/
def kindOf (ts : List Tok) : Option Kind :=
  match ts with
  | [.name x] =>
    cond (Nat.beq x n!"classmethod") (some .classMethod) (cond (Nat.beq x n!"staticmethod") (some .staticMethod)
      (cond (Nat.beq x n!"property") (some .property) none))
  | _ => none

/-- What is in a class: annotated fields, variables, functions. -/
structure Members where
  fields : List (Name × Ex)
  vars : List (Name × Ex)
  funs : List Fun

/-- A member, with those after it. -/
def thenMembers (r : Option (Members × List Line)) (k : Members → Members) : Option (Members × List Line) :=
  match r with
  | none => none
  | some (ms, ls) => some (k ms, ls)

/-- The body of a class, indented by `ind`. -/
def members : Nat → Nat → List Line → Option (Members × List Line)
  | 0, _, _ => none
  | n + 1, ind, ls =>
    match ls with
    | [] => some (⟨[], [], []⟩, [])
    | (i, ts) :: ls' =>
      cond (Nat.ble (i + 1) ind) (some (⟨[], [], []⟩, ls))
        (cond (Nat.beq i ind)
          (cond (nextIs n!"@" ts)
            (match kindOf ts.tail, ls' with
            | some kind, (i', ts') :: ls'' =>
              cond (Nat.beq i' ind && nextName n!"def" ts')
                (match function n kind ind ts'.tail ls'' with
                | none => none
                | some (f, ls) => thenMembers (members n ind ls) fun ms => ⟨ms.fields, ms.vars, f :: ms.funs⟩)
                none
            | _, _ => none)
            (cond (nextName n!"def" ts)
              (match function n .method ind ts.tail ls' with
              | none => none
              | some (f, ls) => thenMembers (members n ind ls) fun ms => ⟨ms.fields, ms.vars, f :: ms.funs⟩)
              (identifier ts fun x ts =>
                cond (nextIs n!":" ts)
                  (match skipAnnotation (Nat.beq n!"=") ts.tail with
                  | [] => thenMembers (members n ind ls') fun ms => ⟨(x, .argNil) :: ms.fields, ms.vars, ms.funs⟩
                  | ts => expect n!"=" ts fun ts => wholeExpr n ts fun d => thenMembers (members n ind ls') fun ms => ⟨(x, d) :: ms.fields, ms.vars, ms.funs⟩)
                  (expect n!"=" ts fun ts => wholeExpr n ts fun d => thenMembers (members n ind ls') fun ms => ⟨ms.fields, (x, d) :: ms.vars, ms.funs⟩))))
          none)

/-- `class C(Base):`. -/
def classDef (n : Nat) (m : Name) (dataclass : Bool) (ts : List Tok) (ls : List Line) : Option (Cls × List Line) :=
  identifier ts fun c ts =>
    match cond (nextIs n!"(" ts) (identifier ts.tail fun b ts => expect n!")" ts fun ts => some (b, ts)) (some (n!"object", ts)) with
    | some (base, [.op colon]) =>
      cond (Nat.beq colon n!":")
        (match ls with
        | (i + 1, _) :: _ =>
          match members n (i + 1) ls with
          | none => none
          | some (ms, ls) => some (⟨c, m, base, dataclass, ms.fields, ms.vars, ms.funs⟩, ls)
        | _ => none)
        none
    | _ => none

/-- Names with commas between them. -/
def names : List Tok → Option (List Name)
  | [.name x] => cond (isKeyword x keywords) none (some [x])
  | .name x :: .op c :: ts =>
    cond (Nat.beq c n!"," && !isKeyword x keywords)
      (match names ts with
      | none => none
      | some xs => some (x :: xs))
      none
  | _ => none

/-- A file: the names it defines, its classes, its functions, and its other statements. -/
structure Parsed where
  globals : List (Name × Glob)
  classes : List Cls
  funs : List Fun
  body : St

/-- `x = e` -/
def constant (n : Nat) (ts : List Tok) : Option (Name × Ex) := identifier ts fun x ts => expect n!"=" ts fun ts => wholeExpr n ts fun e => some (x, e)

/-- Is this a line `x = …`? -/
def assigns (ts : List Tok) : Bool :=
  match ts with
  | .name _ :: .op c :: _ => Nat.beq c n!"="
  | _ => false

/-- What is before the rest of a module, with the rest. -/
def thenParsed (r : Option Parsed) (k : Parsed → Parsed) : Option Parsed :=
  match r with
  | none => none
  | some p => some (k p)

/-- A module: imports, constants, classes, functions; and, at the end, other statements.  In a program (`program`), assignments are statements like others. -/
def moduleItems : Nat → Name → Bool → List Line → Option Parsed
  | 0, _, _, _ => none
  | n + 1, m, program, ls =>
    match ls with
    | [] => some ⟨[], [], [], .done⟩
    | (0, ts) :: ls' =>
      cond (nextName n!"import" ts)
        (match names ts.tail with
        | none => none
        | some xs => thenParsed (moduleItems n m program ls') fun p => ⟨xs.map (fun x => (x, .lib)) ++ p.globals, p.classes, p.funs, p.body⟩)
        (cond (nextName n!"from" ts)
          (match ts.tail with
          | .name package :: .op dot :: .name l :: ts =>
            cond (Nat.beq package n!"genieutils" && Nat.beq dot n!".")
              (expectName n!"import" ts fun ts =>
                match names ts with
                | none => none
                | some xs => thenParsed (moduleItems n m program ls') fun p => ⟨xs.map (fun x => (x, .from_ l)) ++ p.globals, p.classes, p.funs, p.body⟩)
              none
          | .name _ :: ts =>
            expectName n!"import" ts fun ts =>
              match names ts with
              | none => none
              | some xs => thenParsed (moduleItems n m program ls') fun p => ⟨xs.map (fun x => (x, .lib)) ++ p.globals, p.classes, p.funs, p.body⟩
          | _ => none)
          (cond (nextIs n!"@" ts)
            (wholeExpr n ts.tail fun d =>
              match d, ls' with
              | .call (.name f) (.kw k (.bool true) .argNil), (0, ts') :: ls'' =>
                cond (Nat.beq f n!"dataclass" && Nat.beq k n!"slots" && nextName n!"class" ts')
                  (match classDef n m true ts'.tail ls'' with
                  | none => none
                  | some (c, ls) => thenParsed (moduleItems n m program ls) fun p => ⟨(c.name, .cls) :: p.globals, c :: p.classes, p.funs, p.body⟩)
                  none
              | _, _ => none)
            (cond (nextName n!"class" ts)
              (match classDef n m false ts.tail ls' with
              | none => none
              | some (c, ls) => thenParsed (moduleItems n m program ls) fun p => ⟨(c.name, .cls) :: p.globals, c :: p.classes, p.funs, p.body⟩)
              (cond (nextName n!"def" ts)
                (match function n .method 0 ts.tail ls' with
                | none => none
                | some (f, ls) => thenParsed (moduleItems n m program ls) fun p => ⟨p.globals, p.classes, f :: p.funs, p.body⟩)
                (cond (!program && assigns ts)
                  (match constant n ts with
                  | some (x, e) => thenParsed (moduleItems n m program ls') fun p => ⟨(x, .const e) :: p.globals, p.classes, p.funs, p.body⟩
                  | none => none)
                  (match block n (.block 0) ls with
                  | some (body, []) => some ⟨[], [], [], body⟩
                  | _ => none))))))
    | _ => none

/-- Room for nested calls of the parser. -/
def room : Nat := 4000

/-- A module of the package. -/
def parseModule (m : Name) (lines : List Nat) : Option Parsed := moduleItems room m false (logical lines none)

/-- A program: imports and statements. -/
def parseProgram (lines : List Nat) : Option Parsed := moduleItems room n!"readme" true (logical lines none)

end Genie.Src.Text
