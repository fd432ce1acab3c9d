import Verif.Proof.Source.LexicalTexts
import Verif.Props.C72_Statements
/-!
# C73: the lexer follows Python's lexical grammar

`Verif/Spec/PythonLexical.lean` states which characters are which tokens, and which physical lines are one logical line.  The lexer of C65 returns exactly
these tokens and lines, or refuses the text.  With C71 and C72: the trees that C60 to C70 execute are trees that the grammar of Python gives to the characters
of the files.
-/

namespace Genie.Src.Text

/-- The lexer returns, without refusing anything, exactly the tokens that the grammar gives to the line. -/
theorem C73_tokens (cs : List Nat) (ts : List Tok) : lex .blank cs = ts ∧ Tok.bad ∉ ts ↔ Tokens cs ts := by
  constructor
  · rintro ⟨rfl, h⟩
    exact lex_tokens cs .blank [] rfl h
  · exact fun h => ⟨tokens_lex h, tokens_not_bad h⟩

/-- A line has at most one sequence of tokens. -/
theorem C73_unambiguous (cs : List Nat) (ts ts' : List Tok) (h : Tokens cs ts) (h' : Tokens cs ts') : ts = ts' :=
  (tokens_lex h).symm.trans (tokens_lex h')

/-- The longest match: of the beginnings of a line, none that is a token is longer than the one that `Tokens` takes. -/
theorem C73_longest (t t' : Tok) (u v cs cs' : List Nat) (h : Lexeme t u) (hs : ∀ c w, cs = c :: w → Stops t c)
    (h' : Lexeme t' v) (same : u ++ cs = v ++ cs') : v.length ≤ u.length :=
  longest h hs h' same

theorem stops_blank {t : Tok} {u : List Nat} (h : Lexeme t u) (ht : t ≠ sym n!"\\") : Stops t 32 := by
  cases h with
  | name _ _ => exact ⟨by unfold Letter; omega, by unfold Digit; omega, by omega⟩
  | int _ => exact ⟨by unfold Letter; omega, by unfold Digit; omega, by omega⟩
  | hex _ => exact ⟨by unfold Letter; omega, by unfold Digit; omega, by omega⟩
  | float _ _ _ => exact ⟨by unfold Letter; omega, by unfold Digit; omega⟩
  | str _ => exact (by omega : (32 : Nat) ≠ 39)
  | bytes _ => exact (by omega : (32 : Nat) ≠ 39)
  | operator h =>
    refine ⟨fun e => ht (congrArg Tok.op e), fun v _ _ hv => ?_⟩
    have : ∀ w ∈ operatorTexts, w.getLast? ≠ some 32 := by decide
    exact this _ hv (List.getLast?_concat ..)

/-- A comment after a line (with a blank before it) does not change its tokens, unless the line ends in a backslash. -/
theorem C73_trailing_comment (cs : List Nat) (ts : List Tok) (h : Tokens cs ts) (hb : ts.getLast? ≠ some (sym n!"\\")) (comment : List Nat) :
    Tokens (cs ++ 32 :: 35 :: comment) ts := by
  induction h with
  | nil => exact .blank .comment
  | blank _ ih => exact .blank (ih hb)
  | comment => exact .comment
  | token hl hs h ih =>
    rename_i t u cs ts
    rw [List.append_assoc]
    refine .token hl (fun c v e => ?_) (ih fun e => hb ?_)
    · cases cs with
      | nil =>
        cases e
        obtain rfl : ts = [] := ((C73_tokens _ _).2 h).1.symm
        exact stops_blank hl fun e => hb (congrArg some e)
      | cons d cs => cases e; exact hs _ _ rfl
    · cases ts with
      | nil => cases e
      | cons s ts => rw [List.getLast?_cons_cons]; exact e

/-- The logical lines of a text, likewise. -/
theorem C73_lines (lines : List Nat) (out : List Line) :
    logical lines none = out ∧ (∀ p ∈ out, Tok.bad ∉ p.2) ↔ LogicalLines (lines.map chars) out := by
  constructor
  · rintro ⟨rfl, h⟩
    exact (logical_sound lines).1 h
  · exact fun h => ⟨lines_logical h lines rfl, lines_clean h⟩

/-- The same line, or the same with a comment after it; and then the line does not end in a backslash. -/
inductive CommentedLine : List Nat → List Nat → Prop where
  | same : CommentedLine l l
  | comment : (∀ ts, Tokens l ts → ts.getLast? ≠ some (sym n!"\\")) → CommentedLine l (l ++ 32 :: 35 :: c)

/-- The same text with comments after some of its lines. -/
inductive Commented : List (List Nat) → List (List Nat) → Prop where
  | nil : Commented [] []
  | cons : CommentedLine l l' → Commented ls ls' → Commented (l :: ls) (l' :: ls')

theorem CommentedLine.tokens {l l' : List Nat} (h : CommentedLine l l') {ts : List Tok} (ht : Tokens l ts) : Tokens l' ts := by
  cases h with
  | same => exact ht
  | comment hb => exact C73_trailing_comment _ _ ht (hb _ ht) _

theorem Commented.joined {s : List Tok} {ls ls' : List (List Nat)} {ts : List Tok} (hj : Joined s ls ts) (h : Commented ls ls') : Joined s ls' ts := by
  induction hj generalizing ls' with
  | last ht hn hb =>
    cases h with
    | cons hl h => cases h; exact .last (hl.tokens ht) hn hb
  | backslash ht hb _ ih =>
    cases h with
    | cons hl h => exact .backslash (hl.tokens ht) hb (ih h)
  | bracket ht hn hb hs _ ih =>
    cases h with
    | cons hl h => exact .bracket (hl.tokens ht) hn hb hs (ih h)

theorem Commented.append : ∀ {a b c : List (List Nat)}, Commented (a ++ b) c → ∃ a' b', c = a' ++ b' ∧ Commented a a' ∧ Commented b b'
  | [], b, c, h => ⟨[], c, rfl, .nil, h⟩
  | x :: a, b, c, h => by
    cases h with
    | cons hl h =>
      obtain ⟨a', b', rfl, h1, h2⟩ := h.append
      exact ⟨_ :: a', b', rfl, .cons hl h1, h2⟩

theorem blanks_tokens : ∀ n, Tokens (List.replicate n 32) []
  | 0 => .nil
  | n + 1 => .blank (blanks_tokens n)

theorem CommentedLine.indented {l l' : List Nat} (h : CommentedLine l l') (hl : ¬Tokens l []) {n : Nat} (hi : Indented n l) : Indented n l' := by
  cases h with
  | same => exact hi
  | comment _ =>
    rename_i c _
    obtain ⟨cs, rfl, hc⟩ := hi
    cases cs with
    | nil => rw [List.append_nil] at hl; exact absurd (blanks_tokens n) hl
    | cons d cs => exact ⟨d :: cs ++ 32 :: 35 :: c, List.append_assoc .., hc⟩

theorem CommentedLine.not_empty {l l' : List Nat} (h : CommentedLine l l') (hl : ¬Tokens l []) {ts : List Tok} (ht : Tokens l ts) : ¬Tokens l' [] :=
  fun h' => hl (C73_unambiguous _ _ _ h' (h.tokens ht) ▸ ht)

theorem joined_tokens {s : List Tok} {l : List Nat} {ls : List (List Nat)} {ts : List Tok} (h : Joined s (l :: ls) ts) : ∃ us, Tokens l us := by
  cases h with
  | last ht _ _ => exact ⟨_, ht⟩
  | backslash ht _ _ => exact ⟨_, ht⟩
  | bracket ht _ _ _ _ => exact ⟨_, ht⟩

/-- Comments at the ends of lines mean nothing: with them, wherever they are put, also within brackets, the logical lines are the same, and so are the modules. -/
theorem C73_comments (text text' : List (List Nat)) (out : List Line) (h : LogicalLines text out) (hc : Commented text text') : LogicalLines text' out := by
  induction h generalizing text' with
  | nil => cases hc; exact .nil
  | empty ht _ ih =>
    cases hc with
    | cons hl hc => exact .empty (hl.tokens ht) (ih _ hc)
  | line hne hj hi _ ih =>
    obtain ⟨a', b', rfl, h1, h2⟩ := hc.append
    have hj' := h1.joined hj
    cases h1 with
    | cons hl h1 =>
      obtain ⟨us, hu⟩ := joined_tokens hj
      exact .line (hl.not_empty hne hu) hj' (hl.indented hne hi) (ih _ h2)

/-- A text that the parser accepts, given by the characters of its lines: the grammar makes logical lines of the characters, and of these the tree that the
parser returned. -/
theorem C73_module (m : Name) (text : List (List Nat)) (ht : ∀ l ∈ text, l.length ≤ 500 ∧ ∀ c ∈ l, 0 < c ∧ c < 256) (p : Parsed)
    (h : parseModule m (text.map code) = some p) : ∃ out, LogicalLines text out ∧ ModuleText m false p out := by
  have h1 := C72_module m _ p h
  have h2 := (C73_lines _ _).1 ⟨rfl, moduleText_clean h1⟩
  rw [chars_text ht] at h2
  exact ⟨_, h2, h1⟩

/-- The same for a program. -/
theorem C73_program (text : List (List Nat)) (ht : ∀ l ∈ text, l.length ≤ 500 ∧ ∀ c ∈ l, 0 < c ∧ c < 256) (p : Parsed)
    (h : parseProgram (text.map code) = some p) : ∃ out, LogicalLines text out ∧ ModuleText n!"readme" true p out := by
  have h1 := C72_program _ p h
  have h2 := (C73_lines _ _).1 ⟨rfl, moduleText_clean h1⟩
  rw [chars_text ht] at h2
  exact ⟨_, h2, h1⟩

/-- The characters of a text are logical lines, and these a module, in at most one way. -/
theorem C73_one_tree (m : Name) (program : Bool) (text : List (List Nat)) (ht : ∀ l ∈ text, l.length ≤ 500 ∧ ∀ c ∈ l, 0 < c ∧ c < 256)
    (out out' : List Line) (p p' : Parsed) (h1 : LogicalLines text out) (h2 : ModuleText m program p out)
    (h1' : LogicalLines text out') (h2' : ModuleText m program p' out') : out' = out ∧ p' = p := by
  rw [← chars_text ht] at h1 h1'
  obtain ⟨rfl, _⟩ := (C73_lines _ _).2 h1
  obtain ⟨rfl, _⟩ := (C73_lines _ _).2 h1'
  exact ⟨rfl, C72_unambiguous m program p' p _ h2' h2⟩

/-- With the lexer and a parser with enough room: exactly the texts that the grammar gives a tree are accepted, with this tree. -/
theorem C73_exact (m : Name) (program : Bool) (lines : List Nat) (p : Parsed) :
    (∃ out, LogicalLines (lines.map chars) out ∧ ModuleText m program p out) ↔ ∃ room, moduleItems room m program (logical lines none) = some p := by
  constructor
  · rintro ⟨out, h1, h2⟩
    obtain ⟨rfl, _⟩ := (C73_lines _ _).2 h1
    exact (C72_exact m program p _).1 h2
  · rintro ⟨room, h⟩
    have h2 := (C72_exact m program p _).2 ⟨room, h⟩
    exact ⟨_, (C73_lines _ _).1 ⟨rfl, moduleText_clean h2⟩, h2⟩

/-- The characters of a text of which each line is a number. -/
def Characters (lines : List Nat) (text : List (List Nat)) : Prop := lines = text.map code ∧ ∀ l ∈ text, ∀ c ∈ l, c < 256

theorem short_package : ∀ q ∈ package, ∀ l ∈ q.2, Nat.ble (256 ^ 500) l = false := by decide +kernel

/-- The package, from its characters: they are logical lines of tokens, and these are modules whose classes, imports and constants are those that C60, C61, C63
and C64 execute.  And there is no other way to read them as modules. -/
theorem C73_package : ∃ ps : List (Name × Parsed),
    ps.map (·.1) = package.map (·.1) ∧
    (∀ q ∈ package.zip ps, ∃ text out, Characters q.1.2 text ∧ LogicalLines text out ∧ ModuleText q.1.1 false q.2.2 out ∧
      ∀ out' p', LogicalLines text out' → ModuleText q.1.1 false p' out' → out' = out ∧ p' = q.2.2) ∧
    ps.flatMap (fun p => p.2.classes.map withoutFiles) = classes ∧
    ps.map (fun p => (⟨p.1, withoutTypeVar p.2.globals⟩ : Module)) = modules ∧
    ∀ p ∈ ps, p.2.funs = [] ∧ p.2.body = .done := by
  obtain ⟨ps, h1, h2, h3, h4, h5⟩ := C72_package
  refine ⟨ps, h1, fun q hq => ?_, h3, h4, h5⟩
  have h6 := h2 q hq
  have hl : ∀ l ∈ q.1.2, Nat.ble (256 ^ 500) l = false := by
    have hm : q.1 ∈ package := (List.of_mem_zip (a := q.1) (b := q.2) hq).1
    exact fun l hl => short_package _ hm l hl
  exact ⟨_, _, characters_text hl, (C73_lines _ _).1 ⟨rfl, moduleText_clean h6⟩, h6, fun out' p' h1' h2' => by
    obtain ⟨rfl, _⟩ := (C73_lines _ _).2 h1'
    exact ⟨rfl, C72_unambiguous _ _ p' _ _ h2' h6⟩⟩

/-- `scripts.py` and the programs in the README, likewise. -/
theorem C73_programs :
    (∃ p text out, Characters text_scripts text ∧ LogicalLines text out ∧ ModuleText n!"scripts" false p out ∧ p.funs = Scripts.functions) ∧
    (∃ p text out, Characters text_loom text ∧ LogicalLines text out ∧ ModuleText n!"readme" true p out ∧ p.body = program_loom) ∧
    (∃ p text out, Characters text_kings text ∧ LogicalLines text out ∧ ModuleText n!"readme" true p out ∧ p.body = program_kings) := by
  have go (lines : List Nat) (hl : ∀ l ∈ lines, Nat.ble (256 ^ 500) l = false) (m : Name) (b : Bool) (p : Parsed)
      (h : ModuleText m b p (logical lines none)) : ∃ text out, Characters lines text ∧ LogicalLines text out ∧ ModuleText m b p out :=
    ⟨_, _, characters_text hl, (C73_lines _ _).1 ⟨rfl, moduleText_clean h⟩, h⟩
  obtain ⟨⟨p, h1, h2⟩, ⟨q, h3, h4⟩, ⟨r, h5, h6⟩⟩ := C72_programs
  obtain ⟨t1, o1, a1, a2, a3⟩ := go _ (by decide +kernel) _ _ _ h1
  obtain ⟨t2, o2, b1, b2, b3⟩ := go _ (by decide +kernel) _ _ _ h3
  obtain ⟨t3, o3, c1, c2, c3⟩ := go _ (by decide +kernel) _ _ _ h5
  exact ⟨⟨p, t1, o1, a1, a2, a3, h2⟩, ⟨q, t2, o2, b1, b2, b3, h4⟩, ⟨r, t3, o3, c1, c2, c3, h6⟩⟩

/-! ## The grammar on small texts -/

/-- `x = 0x0A60  # …` -/
example : Tokens (chars n!"x = 0x0A60  # y") [.name n!"x", sym n!"=", .int 2656] := (C73_tokens _ _).1 ⟨rfl, by simp⟩

/-- `1_000`, `a<=b`, `b'\\0c'` -/
example : Tokens (chars n!"f(1_000, a<=b, b'\\0c')")
    [.name n!"f", sym n!"(", .int 1000, sym n!",", .name n!"a", sym n!"<=", .name n!"b", sym n!",", .bytes [0, 99], sym n!")"] :=
  (C73_tokens _ _).1 ⟨rfl, by simp⟩

/-- Refused: `1_`, `007`, `0x`, `b'\\01'`, `f'x'`, `'a''b'`, `$`, a backslash that is not last. -/
example : (["1_", "007", "0x", "b'\\01'", "f'x'", "'a''b'", "$", "\\ x", "2.5", "1if"].map fun s => (lex .blank (s.toList.map Char.toNat)).any
    fun t => match t with | .bad => true | _ => false) = [true, true, true, true, true, true, true, true, true, true] := by decide

/-- A line goes on within brackets and after a backslash. -/
example : LogicalLines ([n!"x = f(1,", n!"", n!"   2) + \\", n!"  3", n!"# c", n!"  y"].map chars)
    [(0, [.name n!"x", sym n!"=", .name n!"f", sym n!"(", .int 1, sym n!",", .int 2, sym n!")", sym n!"+", .int 3]), (2, [.name n!"y"])] :=
  (C73_lines _ _).1 ⟨rfl, by simp⟩

/-- A bracket that does not match is refused. -/
example : ¬∃ out, LogicalLines ([n!"f(1]"].map chars) out := by
  intro ⟨out, h⟩
  obtain ⟨rfl, h2⟩ := (C73_lines _ _).2 h
  exact h2 (0, [.bad]) (by exact List.mem_cons_self) List.mem_cons_self

/-- What C73_module says is about texts that are accepted: here is one. -/
example : ∃ p, parseModule n!"m" (([n!"x = 1"].map chars).map code) = some p := ⟨_, rfl⟩

/-- The hypotheses of C73_trailing_comment. -/
example : Tokens (chars n!"x = 1" ++ 32 :: 35 :: chars n!" one") [.name n!"x", sym n!"=", .int 1] :=
  C73_trailing_comment (chars n!"x = 1") [.name n!"x", sym n!"=", .int 1] ((C73_tokens _ _).1 ⟨rfl, by simp⟩) (by simp) _

/-- The hypotheses of C73_comments. -/
example : LogicalLines [chars n!"x = (1 +" ++ 32 :: 35 :: chars n!" one", chars n!"  2)"]
    [(0, [.name n!"x", sym n!"=", sym n!"(", .int 1, sym n!"+", .int 2, sym n!")"])] :=
  C73_comments _ _ _ ((C73_lines [n!"x = (1 +", n!"  2)"] _).1 ⟨rfl, by simp⟩)
    (.cons (.comment fun ts h => by
      obtain rfl := C73_unambiguous _ ts [.name n!"x", sym n!"=", sym n!"(", .int 1, sym n!"+"] h ((C73_tokens _ _).1 ⟨rfl, by simp⟩)
      simp) (.cons .same .nil))

end Genie.Src.Text
