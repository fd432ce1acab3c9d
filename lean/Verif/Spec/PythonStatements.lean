import Verif.Spec.PythonGrammar
/-!
# The grammar of Python's statements

The grammar of chapters 7 and 8 of the Python Language Reference, for the statements, functions, classes and modules that occur in `/repo/src/genieutils`, as
relations between syntax trees and logical lines (an indentation and tokens each).  As in `Verif/Spec/PythonGrammar.lean`, no parser is involved.

Narrower than Python: `return` and `raise` are the last statements of their block; functions are not nested; a decorator is one of those that occur.
-/

namespace Genie.Src.Text

/-- An annotation: any tokens with balanced brackets (`depth`: how many are open) and, outside of brackets, none of the operators that end it. -/
inductive Annotation (stop : Nat → Bool) : (depth : Nat) → List Tok → Prop where
  | nil : Annotation stop 0 []
  | open : c = n!"(" ∨ c = n!"[" → Annotation stop (d + 1) u → Annotation stop d (sym c :: u)
  | close : c = n!")" ∨ c = n!"]" → Annotation stop d u → Annotation stop (d + 1) (sym c :: u)
  | operator : c ∉ [n!"(", n!"[", n!")", n!"]"] → (d = 0 → stop c = false) → Annotation stop d u → Annotation stop d (sym c :: u)
  | other : t ≠ .bad → (∀ c, t ≠ sym c) → Annotation stop d u → Annotation stop d (t :: u)

/-- Names with commas between them. -/
inductive Names : List Name → List Tok → Prop where
  | one : Identifier x → Names [x] [.name x]
  | more : Identifier x → Names xs u → Names (x :: xs) (.name x :: sym n!"," :: u)

/-- The operators of augmented assignments. -/
inductive AugOperator : Bin → Tok → Prop where
  | add : AugOperator .add (sym n!"+=")
  | sub : AugOperator .sub (sym n!"-=")
  | mul : AugOperator .mul (sym n!"*=")

/-- Statements on one line that do not leave the block, before the others of the block.  (A target is an expression whose tree is a name or an attribute.) -/
inductive SimpleStatement : (St → St) → List Tok → Prop where
  | expression : Derives .expression e u → SimpleStatement (.expr e) u
  | assert : Derives .expression e u → SimpleStatement (.assert e) (key n!"assert" :: u)
  | assign : Derives .expression (.name x) t → Derives .expression e u → SimpleStatement (.assign x e) (t ++ sym n!"=" :: u)
  | setAttr : Derives .expression (.attr o a) t → Derives .expression e u → SimpleStatement (.setAttr o a e) (t ++ sym n!"=" :: u)
  /- annotated assignments -/
  | annotated : Derives .expression (.name x) t → Annotation (Nat.beq n!"=") 0 v → v ≠ [] → Derives .expression e u →
      SimpleStatement (.assign x e) (t ++ sym n!":" :: v ++ sym n!"=" :: u)
  | annotatedAttr : Derives .expression (.attr o a) t → Annotation (Nat.beq n!"=") 0 v → v ≠ [] → Derives .expression e u →
      SimpleStatement (.setAttr o a e) (t ++ sym n!":" :: v ++ sym n!"=" :: u)
  /- augmented assignments -/
  | augmented : Derives .expression (.name x) t → AugOperator op o → Derives .expression e u → SimpleStatement (.aug x op e) (t ++ o :: u)
  /- assignments to several names -/
  | unpack : Derives .expression (.name x) t → Names xs v → Derives .expression e u →
      SimpleStatement (.unpack (x :: xs) e) (t ++ sym n!"," :: v ++ sym n!"=" :: u)

/-- Parts of a program that take up several lines. -/
inductive Part where
  /-- statements that are indented by `ind` -/
  | statements (ind : Nat)
  /-- the same, by more than `ind`, and at least one -/
  | suite (ind : Nat)
  /-- what follows the suite of an `if` that is indented by `ind`: nothing, `elif …` or `else` -/
  | orElse (ind : Nat)

/-- `Block p st ls`: the lines `ls` are a part of kind `p`, with the tree `st`. -/
inductive Block : Part → St → List Line → Prop where
  | nil : Block (.statements ind) .done []
  | simple : SimpleStatement f u → Block (.statements ind) rest ls → Block (.statements ind) (f rest) ((ind, u) :: ls)
  | ret : Derives .expression e u → Block (.statements ind) (.ret e) [(ind, key n!"return" :: u)]
  | retTuple : Derives .expression e u → Derives .elements es v →
      Block (.statements ind) (.ret (.tuple (.arg e es))) [(ind, key n!"return" :: u ++ sym n!"," :: v)]
  | raise : Derives .expression e u → Block (.statements ind) (.raise e) [(ind, key n!"raise" :: u)]
  | ite : Derives .expression c u → Block (.suite ind) a la → Block (.orElse ind) b lb → Block (.statements ind) rest lr →
      Block (.statements ind) (.ite c a b rest) ((ind, key n!"if" :: u ++ [sym n!":"]) :: la ++ lb ++ lr)
  | forIn : Identifier x → Derives .expression it u → Block (.suite ind) body lb → Block (.statements ind) rest lr →
      Block (.statements ind) (.forIn x it body rest) ((ind, key n!"for" :: .name x :: key n!"in" :: u ++ [sym n!":"]) :: lb ++ lr)
  | suite : ind < i → ls ≠ [] → Block (.statements i) st ls → Block (.suite ind) st ls
  | noElse : Block (.orElse ind) .done []
  | else_ : Block (.suite ind) b ls → Block (.orElse ind) b ((ind, [key n!"else", sym n!":"]) :: ls)
  | elif : Derives .expression c u → Block (.suite ind) a la → Block (.orElse ind) b lb →
      Block (.orElse ind) (.ite c a b .done) ((ind, key n!"elif" :: u ++ [sym n!":"]) :: la ++ lb)

/-- The annotation of a parameter ends before these. -/
def parameterEnds (c : Nat) : Bool := Nat.beq c n!"," || Nat.beq c n!"=" || Nat.beq c n!")"

/-- The annotation of a parameter. -/
inductive ParameterType : List Tok → Prop where
  | none : ParameterType []
  | some : Annotation parameterEnds 0 u → u ≠ [] → ParameterType (sym n!":" :: u)

/-- The default value of a parameter. -/
inductive DefaultValue : Ex → List Tok → Prop where
  | none : DefaultValue .argNil []
  | some : Derives .expression e u → DefaultValue e (sym n!"=" :: u)

/-- Parameters, with their default values. -/
inductive Parameters : List (Name × Ex) → List Tok → Prop where
  | nil : Parameters [] []
  | last : Identifier x → ParameterType u → DefaultValue d v → Parameters [(x, d)] (.name x :: u ++ v)
  | cons : Identifier x → ParameterType u → DefaultValue d v → Parameters ps w → Parameters ((x, d) :: ps) (.name x :: u ++ v ++ sym n!"," :: w)

/-- The annotation of a result. -/
inductive ResultType : List Tok → Prop where
  | none : ResultType []
  | some : Annotation (Nat.beq n!":") 0 u → u ≠ [] → ResultType (sym n!"->" :: u)

/-- A function definition, indented by `ind`: what follows `def`, and the lines after it. -/
inductive FunctionDef (ind : Nat) : Fun → List Tok → List Line → Prop where
  | mk : Identifier f → Parameters ps u → ResultType v → Block (.suite ind) body ls →
      FunctionDef ind ⟨f, kind, ps, body⟩ (.name f :: sym n!"(" :: u ++ sym n!")" :: v ++ [sym n!":"]) ls

/-- The decorators. -/
inductive Decorator : Kind → List Tok → Prop where
  | classMethod : Decorator .classMethod [sym n!"@", .name n!"classmethod"]
  | staticMethod : Decorator .staticMethod [sym n!"@", .name n!"staticmethod"]
  | property : Decorator .property [sym n!"@", .name n!"property"]

/-- The body of a class, indented by `ind`: fields with annotations, variables, functions. -/
inductive ClassBody (ind : Nat) : Members → List Line → Prop where
  | nil : ClassBody ind ⟨[], [], []⟩ []
  | field : Identifier x → Annotation (Nat.beq n!"=") 0 u → u ≠ [] → ClassBody ind ⟨fs, vs, ms⟩ ls →
      ClassBody ind ⟨(x, .argNil) :: fs, vs, ms⟩ ((ind, .name x :: sym n!":" :: u) :: ls)
  | fieldDefault : Identifier x → Annotation (Nat.beq n!"=") 0 u → u ≠ [] → Derives .expression d v → ClassBody ind ⟨fs, vs, ms⟩ ls →
      ClassBody ind ⟨(x, d) :: fs, vs, ms⟩ ((ind, .name x :: sym n!":" :: u ++ sym n!"=" :: v) :: ls)
  | var : Identifier x → Derives .expression d v → ClassBody ind ⟨fs, vs, ms⟩ ls →
      ClassBody ind ⟨fs, (x, d) :: vs, ms⟩ ((ind, .name x :: sym n!"=" :: v) :: ls)
  | method : FunctionDef ind f u lf → f.kind = .method → ClassBody ind ⟨fs, vs, ms⟩ ls →
      ClassBody ind ⟨fs, vs, f :: ms⟩ ((ind, key n!"def" :: u) :: lf ++ ls)
  | decorated : Decorator f.kind d → FunctionDef ind f u lf → ClassBody ind ⟨fs, vs, ms⟩ ls →
      ClassBody ind ⟨fs, vs, f :: ms⟩ ((ind, d) :: (ind, key n!"def" :: u) :: lf ++ ls)

/-- The base class. -/
inductive BaseClass : Name → List Tok → Prop where
  | object : BaseClass n!"object" []
  | named : Identifier b → BaseClass b [sym n!"(", .name b, sym n!")"]

/-- A class definition: what follows `class`, and the lines after it. -/
inductive ClassDef (m : Name) (dataclass : Bool) : Cls → List Tok → List Line → Prop where
  | mk : Identifier c → BaseClass b u → 0 < ind → ls ≠ [] → ClassBody ind ms ls →
      ClassDef m dataclass ⟨c, m, b, dataclass, ms.fields, ms.vars, ms.funs⟩ (.name c :: u ++ [sym n!":"]) ls

/-- A module of the package (or, with `program`, a program, where assignments are statements like others): imports, constants, classes and functions, and at
the end other statements. -/
inductive ModuleText (m : Name) (program : Bool) : Parsed → List Line → Prop where
  | nil : ModuleText m program ⟨[], [], [], .done⟩ []
  | import_ : Names xs u → ModuleText m program ⟨gs, cs, fs, st⟩ ls →
      ModuleText m program ⟨xs.map (fun x => (x, .lib)) ++ gs, cs, fs, st⟩ ((0, key n!"import" :: u) :: ls)
  | fromPackage : Names xs u → ModuleText m program ⟨gs, cs, fs, st⟩ ls →
      ModuleText m program ⟨xs.map (fun x => (x, .from_ l)) ++ gs, cs, fs, st⟩
        ((0, key n!"from" :: .name n!"genieutils" :: sym n!"." :: .name l :: key n!"import" :: u) :: ls)
  | fromLibrary : Names xs u → ModuleText m program ⟨gs, cs, fs, st⟩ ls →
      ModuleText m program ⟨xs.map (fun x => (x, .lib)) ++ gs, cs, fs, st⟩ ((0, key n!"from" :: .name l :: key n!"import" :: u) :: ls)
  | constant : program = false → Identifier x → Derives .expression e u → ModuleText m program ⟨gs, cs, fs, st⟩ ls →
      ModuleText m program ⟨(x, .const e) :: gs, cs, fs, st⟩ ((0, .name x :: sym n!"=" :: u) :: ls)
  | class_ : ClassDef m false c u lc → ModuleText m program ⟨gs, cs, fs, st⟩ ls →
      ModuleText m program ⟨(c.name, .cls) :: gs, c :: cs, fs, st⟩ ((0, key n!"class" :: u) :: lc ++ ls)
  /- `@dataclass(slots=True)` -/
  | dataclass : Derives .expression (.call (.name n!"dataclass") (.kw n!"slots" (.bool true) .argNil)) v → ClassDef m true c u lc →
      ModuleText m program ⟨gs, cs, fs, st⟩ ls →
      ModuleText m program ⟨(c.name, .cls) :: gs, c :: cs, fs, st⟩ ((0, sym n!"@" :: v) :: (0, key n!"class" :: u) :: lc ++ ls)
  | function : FunctionDef 0 f u lf → f.kind = .method → ModuleText m program ⟨gs, cs, fs, st⟩ ls →
      ModuleText m program ⟨gs, cs, f :: fs, st⟩ ((0, key n!"def" :: u) :: lf ++ ls)
  /- a line `x = …` is a constant, but in a program -/
  | statements : Block (.statements 0) st ls → (program = false → ∀ x u ls', ls ≠ (0, .name x :: sym n!"=" :: u) :: ls') →
      ModuleText m program ⟨[], [], [], st⟩ ls

end Genie.Src.Text
