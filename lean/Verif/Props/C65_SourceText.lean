import Verif.Proof.Source.ReadsCommon
import Verif.Proof.Source.ReadsRecords
import Verif.Proof.Source.ReadsUnit
/-!
# C65: the trees are those of the text

C60 to C64 execute syntax trees.  Here is the text they stand for: `text_versions`, … are the lines of the files of `/repo/src/genieutils` (and of the
programs in `/repo/README.md`), character by character, and the parser of `Verif/Py/Parse.lean` — a function on these lines, defined without
looking at the trees — makes of them exactly the classes, functions, constants, imports and statements that C60 to C64 execute.  The parser refuses
what it does not know: an unknown statement, a wrong indentation or an open bracket anywhere would make it return `none`.
-/

namespace Genie.Src.Text

/-- The modules of the package that the interpreter executes: names and texts. -/
def package : List (Name × List Nat) := [
  (n!"versions", text_versions), (n!"datatypes", text_datatypes), (n!"common", text_common), (n!"effect", text_effect), (n!"sound", text_sound),
  (n!"playercolour", text_playercolour), (n!"graphic", text_graphic), (n!"terrainrestriction", text_terrainrestriction),
  (n!"terrainblock", text_terrainblock), (n!"randommaps", text_randommaps), (n!"tech", text_tech), (n!"techtree", text_techtree),
  (n!"task", text_task), (n!"unit", text_unit), (n!"unitheaders", text_unitheaders), (n!"civ", text_civ), (n!"datfile", text_datfile)]

/-- The modules, parsed; `none` if a module is refused. -/
def parsed : Option (List (Name × Parsed)) := package.mapM fun (m, text) => (parseModule m text).map fun p => (m, p)

/-- A class without the functions `parse` and `save`, which work on files: these are executed by the interpreter of C62, the others by that of C60. -/
def withoutFiles (c : Cls) : Cls := { c with funs := c.funs.filter fun f => !(f.name == n!"parse" || f.name == n!"save") }

/-- The names of a module without the type variable `C`, which occurs in annotations only. -/
def withoutTypeVar (gs : List (Name × Glob)) : List (Name × Glob) := gs.filter fun g => !(g.1 == n!"C")

/-- What the parser returns for the package. -/
def trees : List (Name × Parsed) := [
  (n!"versions", tree_versions), (n!"datatypes", tree_datatypes), (n!"common", tree_common), (n!"effect", tree_effect), (n!"sound", tree_sound), (n!"playercolour", tree_playercolour), (n!"graphic", tree_graphic), (n!"terrainrestriction", tree_terrainrestriction), (n!"terrainblock", tree_terrainblock), (n!"randommaps", tree_randommaps), (n!"tech", tree_tech), (n!"techtree", tree_techtree), (n!"task", tree_task), (n!"unit", tree_unit), (n!"unitheaders", tree_unitheaders), (n!"civ", tree_civ), (n!"datfile", tree_datfile)]

theorem parsed_eq : parsed = some trees := by
  unfold parsed package
  simp only [List.mapM_cons, List.mapM_nil, reads_versions, reads_datatypes, reads_common, reads_effect, reads_sound, reads_playercolour, reads_graphic, reads_terrainrestriction, reads_terrainblock, reads_randommaps, reads_tech, reads_techtree, reads_task, reads_unit, reads_unitheaders, reads_civ, reads_datfile,
    Option.map_some, Option.bind_eq_bind, Option.bind_some, Option.pure_def]
  rfl

/-- Are these the same module? -/
def Module.same (a b : Module) : Bool := Nat.beq a.name b.name && listEq globEq a.globals b.globals

theorem Module.same_eq {a b : Module} (h : Module.same a b = true) : a = b := by
  obtain ⟨n, g⟩ := a
  obtain ⟨n', g'⟩ := b
  rw [Module.same, Bool.and_eq_true] at h
  cases (Nat.eq_of_beq_eq_true h.1 : n = n')
  cases (listEq_eq globEq_eq h.2 : g = g')
  rfl

/-- The whole package: no module is refused; the classes are those that C60, C61, C63 and C64 execute, and so are the imports and constants of each
module; and there is nothing else in the modules: no function outside of a class and no other statement. -/
theorem C65_package : ∃ ps, parsed = some ps ∧
    ps.flatMap (fun p => p.2.classes.map withoutFiles) = classes ∧
    ps.map (fun p => (⟨p.1, withoutTypeVar p.2.globals⟩ : Module)) = modules ∧
    ∀ p ∈ ps, p.2.funs = [] ∧ p.2.body = .done := by
  refine ⟨trees, parsed_eq, listEq_eq Cls.same_eq (by decide +kernel), listEq_eq Module.same_eq (by decide +kernel), ?_⟩
  intro p hp
  simp only [trees, List.mem_cons, List.not_mem_nil, or_false] at hp
  rcases hp with rfl | rfl | rfl | rfl | rfl | rfl | rfl | rfl | rfl | rfl | rfl | rfl | rfl | rfl | rfl | rfl | rfl <;> exact ⟨rfl, rfl⟩

/-- The functions that work on files, in the class `DatFile`: there are exactly these two, and they are those that C62 executes. -/
theorem C65_parse_and_save : ∃ ps, parsed = some ps ∧
    ps.flatMap (fun p => p.2.classes.flatMap fun c => (c.funs.filter fun f => f.name == n!"parse" || f.name == n!"save").map fun f => (c.name, f)) =
      [(n!"DatFile", DatFile.src_parse), (n!"DatFile", DatFile.src_save)] := by
  refine ⟨trees, parsed_eq, ?_⟩
  apply listEq_eq (f := fun a b => Nat.beq a.1 b.1 && Fun.same a.2 b.2)
  · intro a b h
    rw [Bool.and_eq_true] at h
    exact Prod.ext (Nat.eq_of_beq_eq_true h.1) (Fun.same_eq h.2)
  · decide +kernel

/-- `scripts.py`: the functions that C62 executes, and at the end `if __name__ == '__main__': main()`. -/
theorem C65_scripts : ∃ p, parseModule n!"scripts" text_scripts = some p ∧ p.funs = Scripts.functions ∧ p.globals = module_scripts.globals ∧
    p.classes = [] ∧
    p.body = .ite (.compare (.name n!"__name__") (.cmp .eq (.str "__main__") .cmpNil)) (.expr (.call (.name n!"main") .argNil) .done) .done .done :=
  ⟨tree_scripts, reads_scripts, rfl, rfl, rfl, rfl⟩

/-- The programs in the README: the programs that C62 executes. -/
theorem C65_readme :
    (∃ p, parseProgram text_loom = some p ∧ p.globals = module_loom.globals ∧ p.classes = [] ∧ p.funs = [] ∧ p.body = program_loom) ∧
    (∃ p, parseProgram text_kings = some p ∧ p.globals = module_kings.globals ∧ p.classes = [] ∧ p.funs = [] ∧ p.body = program_kings) :=
  ⟨⟨_, reads_loom, rfl, rfl, rfl, rfl⟩, ⟨_, reads_kings, rfl, rfl, rfl, rfl⟩⟩

/-! ## Blank lines and comments

The parser on any text, not only on these files. -/

/-- A line that has nothing in it but spaces and a comment. -/
def Empty (line : Nat) : Prop := ∃ spaces, chars line = List.replicate spaces 32 ∨ ∃ comment, chars line = List.replicate spaces 32 ++ 35 :: comment

/-- A line that ends in a backslash. -/
def EndsInBackslash (line : Nat) : Prop := (lex .blank (chars line)).getLast? = some (.op 92)

theorem lex_spaces (n : Nat) (cs : List Nat) : lex .blank (List.replicate n 32 ++ cs) = lex .blank cs := by
  induction n with
  | zero => rfl
  | succ n ih => rw [List.replicate_succ, List.cons_append]; exact ih

theorem lex_comment (cs : List Nat) : lex .comment cs = [] := by
  induction cs with
  | nil => rfl
  | cons c cs ih => exact ih

theorem lex_empty {line : Nat} (h : Empty line) : lex .blank (chars line) = [] := by
  obtain ⟨n, h | ⟨c, h⟩⟩ := h
  · rw [h, ← List.append_nil (List.replicate n 32), lex_spaces]; rfl
  · rw [h, lex_spaces]; exact lex_comment c

theorem slashed_last : ∀ ts : List Tok, slashed ts = true → ts.getLast? = some (.op 92)
  | [], h => by cases h
  | [t], h => by
    cases t with
    | op c => exact congrArg some (congrArg Tok.op (Nat.eq_of_beq_eq_true h))
    | _ => cases h
  | t :: u :: us, h => by
    rw [List.getLast?_cons_cons]
    refine slashed_last (u :: us) ?_
    cases t <;> exact h

theorem logical_insert (line : Nat) (after : List Nat) (h : Empty line) : ∀ (before : List Nat) (pending : Option (Nat × List Tok × List Nat)),
    (∀ l ∈ before, ¬EndsInBackslash l) → (∀ p, pending = some p → p.2.2 ≠ []) →
    logical (before ++ line :: after) pending = logical (before ++ after) pending
  | [], none, _, _ => by rw [List.nil_append, logical, lex_empty h]; rfl
  | [], some (i, sofar, s), _, hp => by
    rw [List.nil_append, logical, lex_empty h]
    cases s with
    | nil => exact absurd rfl (hp _ rfl)
    | cons d s => show logical after (some (i, sofar ++ unslash [], d :: s)) = _; rw [unslash, List.append_nil]; rfl
  | l :: before, pending, hb, hp => by
    have ih := logical_insert line after h before
    have hb' : ∀ l ∈ before, ¬EndsInBackslash l := fun x hx => hb x (List.mem_cons_of_mem _ hx)
    have hl := hb l List.mem_cons_self
    have key : slashed (lex .blank (chars l)) = false := by
      cases hs : slashed (lex .blank (chars l))
      · rfl
      · exact absurd (slashed_last _ hs) hl
    rw [List.cons_append, List.cons_append]
    cases pending with
    | none =>
      rw [logical, logical]
      generalize lex .blank (chars l) = ts at key ⊢
      cases ts with
      | nil => exact ih none hb' (fun _ hx => by cases hx)
      | cons t ts =>
        dsimp only
        rw [key]
        cases brackets (t :: ts) [] with
        | none => rfl
        | some s =>
          cases s with
          | nil => exact congrArg _ (ih none hb' (fun _ hx => by cases hx))
          | cons d s => exact ih _ hb' (fun p hx => by cases hx; exact List.cons_ne_nil d s)
    | some p =>
      obtain ⟨i, sofar, s⟩ := p
      rw [logical, logical, key]
      cases brackets (lex .blank (chars l)) s with
      | none => rfl
      | some s =>
        cases s with
        | nil => exact congrArg _ (ih none hb' (fun _ hx => by cases hx))
        | cons d s => exact ih _ hb' (fun p hx => by cases hx; exact List.cons_ne_nil d s)

/-- A blank line or a line with only a comment means nothing: wherever it is put into a text (without lines that go on after a backslash), inside of
brackets or not and however it is indented, the text parses as before. -/
theorem C65_blank_lines (m : Name) (before after : List Nat) (line : Nat) (h : Empty line) (hb : ∀ l ∈ before, ¬EndsInBackslash l) :
    parseModule m (before ++ line :: after) = parseModule m (before ++ after) := by
  unfold parseModule
  rw [logical_insert line after h before none hb (fun _ hx => by cases hx)]

example : Empty n!"" := ⟨0, Or.inl rfl⟩
example : Empty n!"    # sizes" := ⟨4, Or.inr ⟨_, rfl⟩⟩

/-! ## The parser on small texts -/

/-- The expression in `x = …`. -/
def expression (line : Nat) : Option Ex :=
  match parseModule n!"m" [line] with
  | some ⟨[(_, .const e)], [], [], .done⟩ => some e
  | _ => none

/-- The function of a module that has one. -/
def functionOf (lines : List Nat) : Option St :=
  match parseModule n!"m" lines with
  | some ⟨[], [], [f], .done⟩ => some f.body
  | _ => none

example : expression n!"x = 1 + 2 * 3" = some (.bin .add (.int 1) (.bin .mul (.int 2) (.int 3))) := by rfl
example : expression n!"x = (1 + 2) * 3" = some (.bin .mul (.bin .add (.int 1) (.int 2)) (.int 3)) := by rfl
example : expression n!"x = a - b - c" = some (.bin .sub (.bin .sub (.name n!"a") (.name n!"b")) (.name n!"c")) := by rfl
example : expression n!"x = not a == b" = some (.not (.compare (.name n!"a") (.cmp .eq (.name n!"b") .cmpNil))) := by rfl
example : expression n!"x = a if c else b if d else e" =
    some (.ifExp (.name n!"c") (.name n!"a") (.ifExp (.name n!"d") (.name n!"b") (.name n!"e"))) := by rfl
example : expression n!"x = -a.b(c)[0]" =
    some (.neg (.index (.call (.attr (.name n!"a") n!"b") (.arg (.name n!"c") .argNil)) (.int 0))) := by rfl
example : expression n!"x = 0x1F" = some (.int 31) := by rfl
example : expression n!"x = (1,)" = some (.tuple (.arg (.int 1) .argNil)) := by rfl
example : expression n!"x = (1)" = some (.int 1) := by rfl
example : expression n!"x = 1 +" = none := by rfl
example : expression n!"x = (1" = none := by rfl
example : expression n!"x = lambda: 1" = none := by rfl
example : expression n!"x = 'a" = none := by rfl
example : expression n!"x = a b" = none := by rfl

example : functionOf [n!"def f(a):", n!"    if a:", n!"        return 1", n!"    elif b:", n!"        return 2", n!"    return 3"] =
    some (.ite (.name n!"a") (.ret (.int 1)) (.ite (.name n!"b") (.ret (.int 2)) .done .done) (.ret (.int 3))) := by rfl
example : functionOf [n!"def f(a):", n!"    for b in a:", n!"        c = b", n!"    return c"] =
    some (.forIn n!"b" (.name n!"a") (.assign n!"c" (.name n!"b") .done) (.ret (.name n!"c"))) := by rfl
example : functionOf [n!"def f(a):", n!"    for b in a:", n!"        c = b", n!"        return c"] =
    some (.forIn n!"b" (.name n!"a") (.assign n!"c" (.name n!"b") (.ret (.name n!"c"))) .done) := by rfl
example : functionOf [n!"def f(a):", n!"    while a:", n!"        a = b"] = none := by rfl
example : functionOf [n!"def f(a):", n!"    a = b", n!"      c = d"] = none := by rfl
example : functionOf [n!"def f(a):", n!"a = b"] = none := by rfl

end Genie.Src.Text
