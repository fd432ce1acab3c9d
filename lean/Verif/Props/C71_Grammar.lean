import Verif.Proof.Source.GrammarComplete
/-!
# C71: the parser follows the grammar of Python's expressions

`Verif/Spec/PythonGrammar.lean` states the grammar of expressions as in the Python Language Reference: which token sequences are an expression, and with
which tree.  The parser that reads the source text in C65 returns exactly the trees of that grammar; and no token sequence has two of them.
-/

namespace Genie.Src.Text

/-- The tokens that may go on with an expression: what stands before one of them need not be all of the expression. -/
def continuing : List Tok := [sym n!".", sym n!"(", sym n!"[", sym n!"*", sym n!"+", sym n!"-", sym n!"==", sym n!"!=", sym n!"<", sym n!"<=", sym n!">",
  sym n!">=", key n!"is", key n!"and", key n!"if"]

/-- An expression ends before these tokens: there are none, or the next one cannot go on with it (a closing bracket, a comma, a colon, `=`, `else`, `for`, …). -/
def Ends (rest : List Tok) : Prop := ∀ t ts, rest = t :: ts → t ∉ continuing

theorem nextIs_ends {rest : List Tok} (h : Ends rest) {c : Nat} (hc : sym c ∈ continuing) : nextIs c rest = false := by
  cases hn : nextIs c rest
  · rfl
  · exact absurd hc (h _ _ (nextIs_eq hn))

theorem nextName_ends {rest : List Tok} (h : Ends rest) {x : Name} (hx : key x ∈ continuing) : nextName x rest = false := by
  cases hn : nextName x rest
  · rfl
  · exact absurd hx (h _ _ (nextName_eq hn))

theorem stops_of_ends {rest : List Tok} (h : Ends rest) : Stops5 rest := by
  have hc : cmpOp rest = none := by
    cases hn : cmpOp rest with
    | none => rfl
    | some q =>
      obtain ⟨op, ts⟩ := q
      obtain ⟨o, rfl, ho⟩ := cmpOp_some hn
      exfalso
      cases ho <;> exact h _ _ rfl (by simp [continuing])
  exact ⟨⟨⟨⟨⟨⟨nextIs_ends h (by simp [continuing]), nextIs_ends h (by simp [continuing]), nextIs_ends h (by simp [continuing])⟩,
    nextIs_ends h (by simp [continuing])⟩, nextIs_ends h (by simp [continuing]), nextIs_ends h (by simp [continuing])⟩, hc⟩,
    nextName_ends h (by simp [continuing])⟩, nextName_ends h (by simp [continuing])⟩

theorem ends_nil : Ends [] := fun _ _ h => by cases h

/-- What the parser returns is what the grammar says: the tokens it took are an expression with that tree, and it left the others. -/
theorem C71_sound (room : Nat) (ts rest : List Tok) (e : Ex) (h : parse room .expr ts = some (e, rest)) :
    ∃ u, ts = u ++ rest ∧ Derives .expression e u :=
  parse_sound room .expr ts e rest h

/-- Every expression of the grammar is read, with its tree, up to its end, whatever stands after it; with any sufficient room. -/
theorem C71_complete (u rest : List Tok) (e : Ex) (h : Derives .expression e u) (hr : Ends rest) :
    ∃ least, ∀ room, least ≤ room → parse room .expr (u ++ rest) = some (e, rest) := by
  obtain ⟨n, hn⟩ := complete h rest (stops_of_ends hr)
  exact ⟨n, fun m hm => parse_le hm hn⟩

/-- A token sequence is an expression with this tree exactly if the parser reads all of it and returns the tree. -/
theorem C71_exact (ts : List Tok) (e : Ex) : Derives .expression e ts ↔ ∃ room, parse room .expr ts = some (e, []) := by
  constructor
  · intro h
    obtain ⟨n, hn⟩ := C71_complete ts [] e h ends_nil
    rw [List.append_nil] at hn
    exact ⟨n, hn n (Nat.le_refl n)⟩
  · intro ⟨n, hn⟩
    obtain ⟨u, rfl, hu⟩ := C71_sound n ts [] e hn
    rwa [List.append_nil]

/-- The grammar is unambiguous: no token sequence has two trees.  More: of a longer sequence of tokens at most one beginning that ends is an expression. -/
theorem C71_unambiguous (u u' rest rest' : List Tok) (e e' : Ex) (h : Derives .expression e u) (h' : Derives .expression e' u')
    (hr : Ends rest) (hr' : Ends rest') (same : u ++ rest = u' ++ rest') : e = e' ∧ u = u' ∧ rest = rest' := by
  have h1 := complete h rest (stops_of_ends hr)
  have h2 := complete h' rest' (stops_of_ends hr')
  rw [same] at h1
  cases Parses.unique h1 h2
  exact ⟨rfl, List.append_cancel_right same, rfl⟩

/-- What has no tree is refused, with any room: the parser returns nothing, or leaves tokens. -/
theorem C71_refuses (ts : List Tok) (h : ∀ e, ¬Derives .expression e ts) (room : Nat) (e : Ex) : parse room .expr ts ≠ some (e, []) :=
  fun hp => h e ((C71_exact ts e).2 ⟨room, hp⟩)

/-- More room changes nothing. -/
theorem C71_room (room more : Nat) (h : room ≤ more) (ts rest : List Tok) (e : Ex) (hp : parse room .expr ts = some (e, rest)) :
    parse more .expr ts = some (e, rest) :=
  parse_le h hp

/-- A right-hand side: the parser accepts a line `x = …` of a module only with the tree of the grammar. -/
theorem C71_whole {α : Type u} (room : Nat) (ts : List Tok) (k : Ex → Option α) (r : α) (h : wholeExpr room ts k = some r) : ∃ e, Derives .expression e ts ∧ k e = some r := by
  obtain ⟨e, rest, h1, h2⟩ := then_some h
  cases rest with
  | nil =>
    obtain ⟨u, rfl, hu⟩ := C71_sound _ _ _ _ h1
    exact ⟨e, by rwa [List.append_nil], h2⟩
  | cons t ts => cases h2

/-! ## The grammar on small texts -/

/-- `1 + 2 * 3` is a sum, and nothing else. -/
example (e : Ex) (h : Derives .expression e [.int 1, sym n!"+", .int 2, sym n!"*", .int 3]) : e = .bin .add (.int 1) (.bin .mul (.int 2) (.int 3)) := by
  have h0 : Derives .expression (.bin .add (.int 1) (.bin .mul (.int 2) (.int 3))) [.int 1, sym n!"+", .int 2, sym n!"*", .int 3] :=
    (C71_exact _ _).2 ⟨50, rfl⟩
  exact (C71_unambiguous _ _ [] [] _ _ h h0 ends_nil ends_nil rfl).1

/-- `a - b - c`, derived by hand. -/
example : Derives .expression (.bin .sub (.bin .sub (.name n!"a") (.name n!"b")) (.name n!"c"))
    [.name n!"a", sym n!"-", .name n!"b", sym n!"-", .name n!"c"] := by
  have h (x : Name) (hx : isKeyword x keywords = false) : Derives .m_expr (.name x) [.name x] := .factor (.primary (.atom (.name (isKeyword_false.1 hx))))
  exact .test (.notTest (.comparison (.operand (.sub (.sub (.term (h n!"a" rfl)) (h n!"b" rfl)) (h n!"c" rfl)))))

/-- A call ends before a comma. -/
example : Ends [sym n!",", .int 1] := fun t ts h => by cases h; simp [continuing]

/-- `f(a=1, 2)` and `f(x, y for y in z)` are refused; `[[x for x in y]]` is a list with one element. -/
example : parse room .expr (lex .blank (chars n!"f(a=1, 2)")) = none := by rfl
example : parse room .expr (lex .blank (chars n!"f(x, y for y in z)")) = none := by rfl
example : parse room .expr (lex .blank (chars n!"[[x for x in y]]")) = some (.list (.arg (.comp (.name n!"x") n!"x" (.name n!"y")) .argNil), []) := by rfl

end Genie.Src.Text
