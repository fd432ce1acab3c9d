import Verif.Proof.Source.StatementsComplete
import Verif.Props.C65_SourceText
/-!
# C72: the parser follows the grammar of Python's statements

`Verif/Spec/PythonStatements.lean` states the grammar of statements, functions, classes and modules: which logical lines they are made of, and which tree
they have.  What the parser of C65 returns for a text is a tree that this grammar gives to the text; so the trees that C60 to C64 execute are trees of the
files of the package, by the grammar.  Conversely every module of the grammar is read, with enough room, so that no text has two trees.
-/

namespace Genie.Src.Text

/-- A module that the parser accepts is one of the grammar, with that tree. -/
theorem C72_module (m : Name) (lines : List Nat) (p : Parsed) (h : parseModule m lines = some p) : ModuleText m false p (logical lines none) :=
  moduleItems_some m false _ _ _ h

/-- The same for a program. -/
theorem C72_program (lines : List Nat) (p : Parsed) (h : parseProgram lines = some p) : ModuleText n!"readme" true p (logical lines none) :=
  moduleItems_some _ true _ _ _ h

/-- The statements of a block, with any room: the lines that were taken are the statements of the tree, each at the indentation of the block; the others are
left, and unless there are none the first of them is indented less if no statement was taken. -/
theorem C72_statements (room ind : Nat) (ls rest : List Line) (st : St) (h : block room (.block ind) ls = some (st, rest)) :
    ∃ used, ls = used ++ rest ∧ Block (.statements ind) st used ∧ (used = [] → blockEnds ind rest = true) :=
  block_sound room (.block ind) ls st rest h

/-- A function: its parameters, default values and body are those of the text. -/
theorem C72_function (room : Nat) (kind : Kind) (ind : Nat) (ts : List Tok) (ls rest : List Line) (f : Fun) (h : function room kind ind ts ls = some (f, rest)) :
    ∃ used, ls = used ++ rest ∧ FunctionDef ind f ts used ∧ f.kind = kind :=
  function_some h

/-- A class: its name, base, fields, variables and functions are those of the text. -/
theorem C72_class (room : Nat) (m : Name) (dataclass : Bool) (ts : List Tok) (ls rest : List Line) (c : Cls) (h : classDef room m dataclass ts ls = some (c, rest)) :
    ∃ used, ls = used ++ rest ∧ ClassDef m dataclass c ts used :=
  classDef_some h

/-! ## Exactly the grammar -/

/-- Every module of the grammar is read, as its tree, by a parser with enough room. -/
theorem C72_complete (m : Name) (program : Bool) (p : Parsed) (ls : List Line) (h : ModuleText m program p ls) :
    ∃ least, ∀ room, least ≤ room → moduleItems room m program ls = some p :=
  moduleItems_complete h

/-- The grammar says of a text exactly what the parser with some room returns. -/
theorem C72_exact (m : Name) (program : Bool) (p : Parsed) (ls : List Line) :
    ModuleText m program p ls ↔ ∃ room, moduleItems room m program ls = some p := by
  constructor
  · intro h
    obtain ⟨n, hn⟩ := C72_complete m program p ls h
    exact ⟨n, hn n (Nat.le_refl n)⟩
  · rintro ⟨n, h⟩
    exact moduleItems_some m program n ls p h

/-- A text is a module in at most one way. -/
theorem C72_unambiguous (m : Name) (program : Bool) (p p' : Parsed) (ls : List Line) (h : ModuleText m program p ls) (h' : ModuleText m program p' ls) : p = p' := by
  obtain ⟨n, hn⟩ := (moduleItems_complete h).and (moduleItems_complete h')
  obtain ⟨h1, h2⟩ := hn n (Nat.le_refl n)
  exact Option.some.inj (h1.symm.trans h2)

/-- The lines of a block are its statements in at most one way: the same `if` and `else`, the same nesting. -/
theorem C72_blocks_unambiguous (part : Part) (st st' : St) (ls : List Line) (h : Block part st ls) (h' : Block part st' ls) : st = st' := by
  obtain ⟨n, h1⟩ := (block_complete h).and (block_complete h')
  obtain ⟨a, b⟩ := h1 n (Nat.le_refl n)
  have e := (a [] (follows_nil _)).symm.trans (b [] (follows_nil _))
  cases e
  rfl

/-- What the parser returned is the only tree that the grammar gives to the text. -/
theorem C72_only (m : Name) (lines : List Nat) (p p' : Parsed) (h : parseModule m lines = some p) (h' : ModuleText m false p' (logical lines none)) : p' = p :=
  C72_unambiguous m false p' p _ h' (C72_module m lines p h)

/-! ## Indentation is relative -/

/-- A line that is indented differently. -/
def shift (f : Nat → Nat) (l : Line) : Line := (f l.1, l.2)

/-- The same for a part. -/
def Part.shift (f : Nat → Nat) : Part → Part
  | .statements ind => .statements (f ind)
  | .suite ind => .suite (f ind)
  | .orElse ind => .orElse (f ind)

section
variable {f : Nat → Nat} (hf : ∀ a b, a < b → f a < f b)

include hf in
theorem block_shift {p : Part} {st : St} {ls : List Line} (h : Block p st ls) : Block (p.shift f) st (ls.map (shift f)) := by
  induction h with
  | nil => exact .nil
  | simple h _ ih => exact .simple h ih
  | ret h => exact .ret h
  | retTuple h h' => exact .retTuple h h'
  | raise h => exact .raise h
  | ite hc _ _ _ iha ihb ihl => rw [List.map_append, List.map_append, List.map_cons]; exact .ite hc iha ihb ihl
  | forIn hx hi _ _ ihb ihl => rw [List.map_append, List.map_cons]; exact .forIn hx hi ihb ihl
  | suite hi hne _ ih => exact .suite (hf _ _ hi) (fun e => hne (List.map_eq_nil_iff.1 e)) ih
  | noElse => exact .noElse
  | else_ _ ih => exact .else_ ih
  | elif hc _ _ iha ihb => rw [List.map_append, List.map_cons]; exact .elif hc iha ihb

include hf in
theorem function_shift {ind : Nat} {g : Fun} {u : List Tok} {ls : List Line} (h : FunctionDef ind g u ls) : FunctionDef (f ind) g u (ls.map (shift f)) := by
  cases h with
  | mk hx hp hv hb => exact .mk hx hp hv (block_shift hf hb)

include hf in
theorem classBody_shift {ind : Nat} {ms : Members} {ls : List Line} (h : ClassBody ind ms ls) : ClassBody (f ind) ms (ls.map (shift f)) := by
  induction h with
  | nil => exact .nil
  | field hx ha hne _ ih => exact .field hx ha hne ih
  | fieldDefault hx ha hne hd _ ih => exact .fieldDefault hx ha hne hd ih
  | var hx hd _ ih => exact .var hx hd ih
  | method h hk _ ih => rw [List.map_append, List.map_cons]; exact .method (function_shift hf h) hk ih
  | decorated hd h _ ih => rw [List.map_append, List.map_cons, List.map_cons]; exact .decorated hd (function_shift hf h) ih

include hf in
theorem class_shift {m : Name} {b : Bool} {c : Cls} {u : List Tok} {ls : List Line} (h : ClassDef m b c u ls) : ClassDef m b c u (ls.map (shift f)) := by
  cases h with
  | mk hc hu hi hne hb => exact .mk hc hu (Nat.lt_of_le_of_lt (Nat.zero_le _) (hf _ _ hi)) (fun e => hne (List.map_eq_nil_iff.1 e)) (classBody_shift hf hb)

/-- How far the lines of a block are indented does not matter, only which are indented more than others: if all indentations are changed by a function
that is strictly increasing (and what is not indented stays so), the tree is the same. -/
theorem C72_reindent (f : Nat → Nat) (hf : ∀ a b, a < b → f a < f b) (h0 : f 0 = 0) (m : Name) (program : Bool) (p : Parsed) (ls : List Line)
    (h : ModuleText m program p ls) : ModuleText m program p (ls.map fun l => (f l.1, l.2)) := by
  show ModuleText m program p (ls.map (shift f))
  have zero (u : List Tok) : shift f (0, u) = (0, u) := by rw [shift, h0]
  induction h with
  | nil => exact .nil
  | import_ hn _ ih => rw [List.map_cons, zero]; exact .import_ hn ih
  | fromPackage hn _ ih => rw [List.map_cons, zero]; exact .fromPackage hn ih
  | fromLibrary hn _ ih => rw [List.map_cons, zero]; exact .fromLibrary hn ih
  | constant hp hx he _ ih => rw [List.map_cons, zero]; exact .constant hp hx he ih
  | class_ hc _ ih => rw [List.map_append, List.map_cons, zero]; exact .class_ (class_shift hf hc) ih
  | dataclass hv hc _ ih => rw [List.map_append, List.map_cons, List.map_cons, zero, zero]; exact .dataclass hv (class_shift hf hc) ih
  | function hg hk _ ih => rw [List.map_append, List.map_cons, zero]; exact .function (h0 ▸ function_shift hf hg) hk ih
  | statements h hn =>
    rename_i st ls
    refine .statements (h0 ▸ block_shift hf h) fun hp x u ls' e => ?_
    cases ls with
    | nil => cases e
    | cons l ls =>
      obtain ⟨i, v⟩ := l
      rw [List.map_cons] at e
      injection e with e1 e2
      injection e1 with e3 e4
      refine hn hp x u ls ?_
      rcases statements_first h with e | ⟨w, ws, e, _⟩
      · cases e
      · cases e; rw [show v = _ from e4]

end

theorem mapM_parsed : ∀ (ms : List (Name × List Nat)) (ps : List (Name × Parsed)),
    (ms.mapM fun (m, text) => (parseModule m text).map fun p => (m, p)) = some ps →
    ps.map (·.1) = ms.map (·.1) ∧ ∀ q ∈ ms.zip ps, parseModule q.1.1 q.1.2 = some q.2.2
  | [], ps, h => by
    rw [List.mapM_nil] at h
    cases h
    exact ⟨rfl, fun _ h => by cases h⟩
  | (m, text) :: ms, ps, h => by
    rw [List.mapM_cons] at h
    dsimp only at h
    cases hm : parseModule m text with
    | none => rw [hm] at h; cases h
    | some p =>
      rw [hm] at h
      cases hr : (ms.mapM fun (m, text) => (parseModule m text).map fun p => (m, p)) with
      | none => rw [Option.map_some, Option.bind_eq_bind, Option.bind_some, hr] at h; cases h
      | some qs =>
        rw [Option.map_some, Option.bind_eq_bind, Option.bind_some, hr] at h
        cases h
        obtain ⟨h1, h2⟩ := mapM_parsed ms qs hr
        refine ⟨by rw [List.map_cons, List.map_cons, h1], fun q hq => ?_⟩
        rw [List.zip_cons_cons] at hq
        rcases List.mem_cons.1 hq with rfl | hq
        · exact hm
        · exact h2 q hq

/-- The package: the grammar gives to the text of each module a tree; the classes of these trees are those that C60, C61, C63 and C64 execute, and their
imports and constants too; and there is nothing else in them. -/
theorem C72_package : ∃ ps : List (Name × Parsed),
    ps.map (·.1) = package.map (·.1) ∧ (∀ q ∈ package.zip ps, ModuleText q.1.1 false q.2.2 (logical q.1.2 none)) ∧
    ps.flatMap (fun p => p.2.classes.map withoutFiles) = classes ∧
    ps.map (fun p => (⟨p.1, withoutTypeVar p.2.globals⟩ : Module)) = modules ∧
    ∀ p ∈ ps, p.2.funs = [] ∧ p.2.body = .done := by
  obtain ⟨ps, h, h1, h2, h3⟩ := C65_package
  obtain ⟨h4, h5⟩ := mapM_parsed package ps h
  exact ⟨ps, h4, fun q hq => C72_module _ _ _ (h5 q hq), h1, h2, h3⟩

/-- `scripts.py` and the programs in the README: the grammar gives them the functions and statements that C62 executes. -/
theorem C72_programs :
    (∃ p, ModuleText n!"scripts" false p (logical text_scripts none) ∧ p.funs = Scripts.functions) ∧
    (∃ p, ModuleText n!"readme" true p (logical text_loom none) ∧ p.body = program_loom) ∧
    (∃ p, ModuleText n!"readme" true p (logical text_kings none) ∧ p.body = program_kings) := by
  obtain ⟨p, h, hf, _⟩ := C65_scripts
  obtain ⟨⟨q, hq, _, _, _, hb⟩, ⟨r, hr, _, _, _, hc⟩⟩ := C65_readme
  exact ⟨⟨p, C72_module _ _ _ h, hf⟩, ⟨q, C72_program _ _ hq, hb⟩, ⟨r, C72_program _ _ hr, hc⟩⟩

/-! ## The grammar on small texts -/

/-- An `if` with an `else`, and a statement after it. -/
example : ∃ p, ModuleText n!"m" false p (logical [n!"def f(a: int, b=0) -> int:", n!"    if a:", n!"        c = 1", n!"    else:", n!"        c = b", n!"    return c"] none) ∧
    p.funs = [⟨n!"f", .method, [(n!"a", .argNil), (n!"b", .int 0)],
      .ite (.name n!"a") (.assign n!"c" (.int 1) .done) (.assign n!"c" (.name n!"b") .done) (.ret (.name n!"c"))⟩] :=
  ⟨_, C72_module _ _ ⟨[], [], [⟨n!"f", .method, [(n!"a", .argNil), (n!"b", .int 0)],
      .ite (.name n!"a") (.assign n!"c" (.int 1) .done) (.assign n!"c" (.name n!"b") .done) (.ret (.name n!"c"))⟩], .done⟩ (by rfl), rfl⟩

/-- A decorator without a function is refused, and so are an annotation that is empty and one with a bracket too many. -/
example : (parseModule n!"m" [n!"class A:", n!"    @staticmethod", n!"def f():", n!"    return 1"]).isSome = false := by rfl
example : (parseModule n!"m" [n!"class A:", n!"    x: = 1"]).isSome = false := by rfl
example : (parseModule n!"m" [n!"class A:", n!"    x: int] = 1"]).isSome = false := by rfl
example : (parseModule n!"m" [n!"class A:", n!"    x: int = 1"]).isSome = true := by rfl

/-- The hypotheses of C72_reindent: indentation by four and by eight. -/
example : ModuleText n!"m" false ⟨[], [], [⟨n!"f", .method, [], .ret (.int 1)⟩], .done⟩
    ((logical [n!"def f():", n!"    return 1"] none).map fun l => (2 * l.1, l.2)) :=
  C72_reindent (2 * ·) (fun a b h => by omega) rfl _ _ _ _ (C72_module _ _ _ (by rfl))

end Genie.Src.Text
