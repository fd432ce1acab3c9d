import Verif.Py.Parse
/-!
# The grammar of Python's expressions

The grammar of chapter 6 of the Python Language Reference, for the expressions that occur in `/repo/src/genieutils`, as a relation between
syntax trees and token sequences.  No parser is involved: each rule says how a phrase is put together from smaller phrases, and which tree it has.  The
names of the phrases are those of the reference.
-/

namespace Genie.Src.Text

/-- A keyword, as a token. -/
abbrev key (x : Name) : Tok := .name x

/-- An operator or delimiter, as a token. -/
abbrev sym (c : Nat) : Tok := .op c

/-- The kinds of phrases. -/
inductive Phrase where
  /-- `conditional_expression` -/
  | expression
  | and_test
  | not_test
  | comparison
  /-- `(comp_operator or_expr)*` -/
  | comparisons
  /-- sums and differences -/
  | a_expr
  /-- products -/
  | m_expr
  | u_expr
  | primary
  | atom
  /-- `expression comp_for`: a generator expression or list comprehension without its brackets -/
  | comprehension
  /-- the arguments of a call: those with a name come last, but for starred ones (`named`: after one with a name) -/
  | arguments (named : Bool)
  /-- what follows an argument: nothing, or a comma and the other arguments (a comma may be last) -/
  | otherArguments (named : Bool)
  /-- the elements of a list or tuple -/
  | elements
  | otherElements

/-- The comparison operators. -/
inductive CompOperator : Cmp → List Tok → Prop where
  | eq : CompOperator .eq [sym n!"=="]
  | ne : CompOperator .ne [sym n!"!="]
  | lt : CompOperator .lt [sym n!"<"]
  | le : CompOperator .le [sym n!"<="]
  | gt : CompOperator .gt [sym n!">"]
  | ge : CompOperator .ge [sym n!">="]
  | is : CompOperator .is [key n!"is"]
  | isNot : CompOperator .isNot [key n!"is", key n!"not"]

/-- The keywords of Python 3.11 (section 2.3.1). -/
def reservedWords : List Name :=
  [n!"False", n!"await", n!"else", n!"import", n!"pass", n!"None", n!"break", n!"except", n!"in", n!"raise", n!"True", n!"class", n!"finally", n!"is",
   n!"return", n!"and", n!"continue", n!"for", n!"lambda", n!"try", n!"as", n!"def", n!"from", n!"nonlocal", n!"while", n!"assert", n!"del", n!"global",
   n!"not", n!"with", n!"async", n!"elif", n!"if", n!"or", n!"yield"]

/-- Identifiers are the names that are not keywords. -/
def Identifier (x : Name) : Prop := x ∉ reservedWords

/-- `Derives p e u`: the tokens `u` are a phrase of kind `p`, with the tree `e`. -/
inductive Derives : Phrase → Ex → List Tok → Prop where
  /- conditional_expression ::= or_test ["if" or_test "else" expression] -/
  | test : Derives .and_test e u → Derives .expression e u
  | conditional : Derives .and_test a u → Derives .and_test c v → Derives .expression b w →
      Derives .expression (.ifExp c a b) (u ++ key n!"if" :: v ++ key n!"else" :: w)
  /- and_test ::= not_test | not_test "and" and_test.  (In the reference: and_test "and" not_test; the operator is associative.) -/
  | notTest : Derives .not_test e u → Derives .and_test e u
  | and : Derives .not_test a u → Derives .and_test b v → Derives .and_test (.and a b) (u ++ key n!"and" :: v)
  /- not_test ::= comparison | "not" not_test -/
  | comparison : Derives .comparison e u → Derives .not_test e u
  | not : Derives .not_test e u → Derives .not_test (.not e) (key n!"not" :: u)
  /- comparison ::= or_expr (comp_operator or_expr)* -/
  | operand : Derives .a_expr e u → Derives .comparison e u
  | compare : Derives .a_expr l u → Derives .comparisons (.cmp op r tail) v → Derives .comparison (.compare l (.cmp op r tail)) (u ++ v)
  | noComparison : Derives .comparisons .cmpNil []
  | comparisons : CompOperator op o → Derives .a_expr r u → Derives .comparisons tail v → Derives .comparisons (.cmp op r tail) (o ++ u ++ v)
  /- a_expr ::= m_expr | a_expr "+" m_expr | a_expr "-" m_expr -/
  | term : Derives .m_expr e u → Derives .a_expr e u
  | add : Derives .a_expr l u → Derives .m_expr r v → Derives .a_expr (.bin .add l r) (u ++ sym n!"+" :: v)
  | sub : Derives .a_expr l u → Derives .m_expr r v → Derives .a_expr (.bin .sub l r) (u ++ sym n!"-" :: v)
  /- m_expr ::= u_expr | m_expr "*" u_expr -/
  | factor : Derives .u_expr e u → Derives .m_expr e u
  | mul : Derives .m_expr l u → Derives .u_expr r v → Derives .m_expr (.bin .mul l r) (u ++ sym n!"*" :: v)
  /- u_expr ::= power | "-" u_expr;  power ::= primary -/
  | primary : Derives .primary e u → Derives .u_expr e u
  | neg : Derives .u_expr e u → Derives .u_expr (.neg e) (sym n!"-" :: u)
  /- primary ::= atom | attributeref | subscription | slicing | call -/
  | atom : Derives .atom e u → Derives .primary e u
  | attr : Derives .primary e u → Identifier a → Derives .primary (.attr e a) (u ++ [sym n!".", .name a])
  | index : Derives .primary e u → Derives .expression i v → Derives .primary (.index e i) (u ++ sym n!"[" :: v ++ [sym n!"]"])
  | slice : Derives .primary e u → Derives .expression i v → Derives .expression j w →
      Derives .primary (.slice e i j) (u ++ sym n!"[" :: v ++ sym n!":" :: w ++ [sym n!"]"])
  | call : Derives .primary f u → Derives (.arguments false) as v → Derives .primary (.call f as) (u ++ sym n!"(" :: v ++ [sym n!")"])
  | callGenerator : Derives .primary f u → Derives .comprehension g v →
      Derives .primary (.call f (.arg g .argNil)) (u ++ sym n!"(" :: v ++ [sym n!")"])
  /- atom ::= identifier | literal | enclosure -/
  | name : Identifier x → Derives .atom (.name x) [.name x]
  | none : Derives .atom .none [key n!"None"]
  | true : Derives .atom (.bool true) [key n!"True"]
  | false : Derives .atom (.bool false) [key n!"False"]
  | int : Derives .atom (.int (Int.ofNat i)) [.int i]
  | float : Derives .atom (.float b) [.float b]
  | str : Derives .atom (.str (String.ofList (cs.map Char.ofNat))) [.str cs]
  | bytes : Derives .atom (.bytes b) [.bytes b]
  | parenthesized : Derives .expression e u → Derives .atom e (sym n!"(" :: u ++ [sym n!")"])
  | tuple : Derives .expression e u → Derives .elements es v → Derives .atom (.tuple (.arg e es)) (sym n!"(" :: u ++ sym n!"," :: v ++ [sym n!")"])
  | list : Derives .elements es u → Derives .atom (.list es) (sym n!"[" :: u ++ [sym n!"]"])
  | listComprehension : Derives .comprehension g u → Derives .atom g (sym n!"[" :: u ++ [sym n!"]"])
  /- comprehension ::= expression "for" identifier "in" or_test ["if" or_test] -/
  | comp : Derives .expression e u → Identifier x → Derives .and_test it v →
      Derives .comprehension (.comp e x it) (u ++ key n!"for" :: .name x :: key n!"in" :: v)
  | compIf : Derives .expression e u → Identifier x → Derives .and_test it v → Derives .and_test c w →
      Derives .comprehension (.compIf e x it c) (u ++ key n!"for" :: .name x :: key n!"in" :: v ++ key n!"if" :: w)
  /- argument_list -/
  | noArguments : Derives (.arguments named) .argNil []
  | positional : Derives .expression e u → Derives (.otherArguments Bool.false) rest v → Derives (.arguments Bool.false) (.arg e rest) (u ++ v)
  | keyword : Identifier x → Derives .expression e u → Derives (.otherArguments Bool.true) rest v →
      Derives (.arguments named) (.kw x e rest) (.name x :: sym n!"=" :: u ++ v)
  | starred : Derives .expression e u → Derives (.otherArguments named) rest v → Derives (.arguments named) (.star e rest) (sym n!"*" :: u ++ v)
  | noOtherArguments : Derives (.otherArguments named) .argNil []
  | otherArguments : Derives (.arguments named) as u → Derives (.otherArguments named) as (sym n!"," :: u)
  /- starred_list -/
  | noElements : Derives .elements .argNil []
  | element : Derives .expression e u → Derives .otherElements rest v → Derives .elements (.arg e rest) (u ++ v)
  | starredElement : Derives .expression e u → Derives .otherElements rest v → Derives .elements (.star e rest) (sym n!"*" :: u ++ v)
  | noOtherElements : Derives .otherElements .argNil []
  | otherElements : Derives .elements es u → Derives .otherElements es (sym n!"," :: u)

end Genie.Src.Text
