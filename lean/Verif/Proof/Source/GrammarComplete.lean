import Verif.Proof.Source.Grammar
/-!
# The parser and the grammar (for C71): what is derivable, the parser returns
-/

namespace Genie.Src.Text

/-! ## more room changes nothing -/

/-- What `a` returns, `b` returns. -/
def Below {α : Type u} (a b : Option α) : Prop := ∀ x, a = some x → b = some x

theorem Below.refl {α : Type u} (a : Option α) : Below a a := fun _ h => h

theorem Below.none {α : Type u} (b : Option α) : Below Option.none b := fun _ h => by cases h

theorem Below.cond {α : Type u} {c : Bool} {a b a' b' : Option α} (ha : Below a a') (hb : Below b b') : Below (cond c a b) (cond c a' b') := by
  cases c
  · exact hb
  · exact ha

theorem Below.then {α : Type u} {r r' : Res} {k k' : Ex → List Tok → Option α} (hr : Below r r') (hk : ∀ e ts, Below (k e ts) (k' e ts)) :
    Below (r.then k) (r'.then k') := by
  intro x h
  obtain ⟨e, ts, h1, h2⟩ := then_some h
  rw [hr _ h1]
  exact hk e ts x h2

theorem Below.expect {α : Type u} {c : Nat} {ts : List Tok} {k k' : List Tok → Option α} (hk : ∀ ts, Below (k ts) (k' ts)) :
    Below (Text.expect c ts k) (Text.expect c ts k') := by
  cases ts with
  | nil => exact Below.refl _
  | cons t ts => exact Below.cond (hk ts) (Below.refl _)

theorem Below.expectName {α : Type u} {c : Name} {ts : List Tok} {k k' : List Tok → Option α} (hk : ∀ ts, Below (k ts) (k' ts)) :
    Below (Text.expectName c ts k) (Text.expectName c ts k') := by
  cases ts with
  | nil => exact Below.refl _
  | cons t ts => exact Below.cond (hk ts) (Below.refl _)

theorem Below.identifier {α : Type u} {ts : List Tok} {k k' : Name → List Tok → Option α} (hk : ∀ x ts, Below (k x ts) (k' x ts)) :
    Below (Text.identifier ts k) (Text.identifier ts k') := by
  cases ts with
  | nil => exact Below.refl _
  | cons t ts =>
    cases t <;> first | exact Below.refl _ | skip
    exact Below.cond (Below.refl _) (hk _ ts)

theorem parseStep_below {p q : Goal → List Tok → Res} (h : ∀ g ts, Below (p g ts) (q g ts)) (g : Goal) (ts : List Tok) :
    Below (parseStep p g ts) (parseStep q g ts) := by
  cases g with
  | compareTail =>
    simp only [parseStep]
    cases cmpOp ts with
    | none => exact Below.refl _
    | some r => exact (h _ _).then fun _ _ => (h _ _).then fun _ _ => Below.refl _
  | comparison => exact (h _ _).then fun _ _ => (h _ _).then fun _ _ => Below.refl _
  | atom =>
    cases ts with
    | nil => exact Below.refl _
    | cons t ts =>
      cases t <;> first | exact Below.refl _ | skip
      exact Below.cond ((h _ _).then fun _ _ => Below.cond (Below.refl _) (Below.cond ((h _ _).then fun _ _ => Below.refl _) (Below.refl _)))
        (Below.cond (h _ _) (Below.refl _))
  | _ =>
    simp only [parseStep]
    repeat' first
      | exact Below.refl _
      | exact h _ _
      | apply Below.cond
      | apply Below.then
      | apply Below.expect
      | apply Below.expectName
      | apply Below.identifier
      | intro _

theorem parse_succ : ∀ n g ts, Below (parse n g ts) (parse (n + 1) g ts)
  | 0, _, _ => Below.none _
  | n + 1, g, ts => parseStep_below (parse_succ n) g ts

theorem parse_le {n m : Nat} (h : n ≤ m) {g : Goal} {ts : List Tok} {r : Ex × List Tok} (hr : parse n g ts = some r) : parse m g ts = some r := by
  induction h with
  | refl => exact hr
  | step _ ih => exact parse_succ _ _ _ _ ih

/-- The parser returns this, with enough room. -/
def Parses (g : Goal) (ts : List Tok) (r : Ex × List Tok) : Prop := ∃ n, parse n g ts = some r

theorem Parses.unique {g : Goal} {ts : List Tok} {r s : Ex × List Tok} (hr : Parses g ts r) (hs : Parses g ts s) : r = s := by
  obtain ⟨n, hn⟩ := hr
  obtain ⟨m, hm⟩ := hs
  have h1 := parse_le (Nat.le_add_right n m) hn
  rw [parse_le (Nat.le_add_left m n) hm] at h1
  cases h1
  rfl

theorem Parses.step0 {g : Goal} {ts : List Tok} {r : Ex × List Tok} (h : ∀ p : Goal → List Tok → Res, parseStep p g ts = some r) : Parses g ts r :=
  ⟨1, h _⟩

theorem Parses.step1 {g : Goal} {ts : List Tok} {r : Ex × List Tok} {g1 : Goal} {t1 : List Tok} {r1 : Ex × List Tok} (h1 : Parses g1 t1 r1)
    (h : ∀ p : Goal → List Tok → Res, p g1 t1 = some r1 → parseStep p g ts = some r) : Parses g ts r := by
  obtain ⟨n, h1⟩ := h1
  exact ⟨n + 1, h _ h1⟩

theorem Parses.step2 {g : Goal} {ts : List Tok} {r : Ex × List Tok} {g1 g2 : Goal} {t1 t2 : List Tok} {r1 r2 : Ex × List Tok}
    (h1 : Parses g1 t1 r1) (h2 : Parses g2 t2 r2)
    (h : ∀ p : Goal → List Tok → Res, p g1 t1 = some r1 → p g2 t2 = some r2 → parseStep p g ts = some r) : Parses g ts r := by
  obtain ⟨n, h1⟩ := h1
  obtain ⟨m, h2⟩ := h2
  exact ⟨n + m + 1, h _ (parse_le (Nat.le_add_right n m) h1) (parse_le (Nat.le_add_left m n) h2)⟩

theorem Parses.step3 {g : Goal} {ts : List Tok} {r : Ex × List Tok} {g1 g2 g3 : Goal} {t1 t2 t3 : List Tok} {r1 r2 r3 : Ex × List Tok}
    (h1 : Parses g1 t1 r1) (h2 : Parses g2 t2 r2) (h3 : Parses g3 t3 r3)
    (h : ∀ p : Goal → List Tok → Res, p g1 t1 = some r1 → p g2 t2 = some r2 → p g3 t3 = some r3 → parseStep p g ts = some r) : Parses g ts r := by
  obtain ⟨n, h1⟩ := h1
  obtain ⟨m, h2⟩ := h2
  obtain ⟨k, h3⟩ := h3
  exact ⟨n + m + k + 1, h _ (parse_le (by omega) h1) (parse_le (by omega) h2) (parse_le (by omega) h3)⟩

/-! ## how phrases begin -/

/-- How a phrase begins: not with a closing bracket or a star; from level 1 not with `not`; on level 2 not with a minus sign. -/
def First (k : Nat) (u : List Tok) : Prop := ∃ t ts, u = t :: ts ∧ t.is n!")" = false ∧ t.is n!"]" = false ∧ t.is n!"*" = false ∧
  (1 ≤ k → t.isName n!"not" = false) ∧ (2 ≤ k → t.is n!"-" = false)

theorem First.append {k : Nat} {u : List Tok} (h : First k u) (v : List Tok) : First k (u ++ v) := by
  obtain ⟨t, ts, rfl, h⟩ := h
  exact ⟨t, ts ++ v, rfl, h⟩

theorem First.less {k : Nat} {u : List Tok} (h : First (k + 1) u) : First k u := by
  obtain ⟨t, ts, rfl, h1, h2, h3, h4, h5⟩ := h
  exact ⟨t, ts, rfl, h1, h2, h3, fun _ => h4 (by omega), fun _ => h5 (by omega)⟩

/-- The level of the phrases that are expressions. -/
def level : Phrase → Option Nat
  | .expression => some 0
  | .and_test => some 0
  | .not_test => some 0
  | .comparison => some 1
  | .a_expr => some 1
  | .m_expr => some 1
  | .u_expr => some 1
  | .primary => some 2
  | .atom => some 2
  | _ => none

theorem identifier_ne {x y : Name} (h : Identifier x) (hy : y ∈ keywords) : Nat.beq x y = false := by
  cases e : Nat.beq x y
  · rfl
  · exact absurd (Nat.eq_of_beq_eq_true e ▸ keywords_reserved.1 _ hy) h

theorem not_keyword : n!"not" ∈ keywords := (isKeyword_iff _ _).1 rfl

theorem derives_first {p : Phrase} {e : Ex} {u : List Tok} (h : Derives p e u) : ∀ k, level p = some k → First k u := by
  induction h with
  | test _ ih => exact ih
  | conditional _ _ _ ih _ _ => intro k hk; cases hk; rw [List.append_assoc]; exact (ih _ rfl).append _
  | notTest _ ih => exact ih
  | and _ _ ih _ => intro k hk; cases hk; exact (ih _ rfl).append _
  | comparison _ ih => intro k hk; cases hk; exact (ih _ rfl).less
  | not _ _ => intro k hk; cases hk; exact ⟨_, _, rfl, rfl, rfl, rfl, fun h => by omega, fun h => by omega⟩
  | operand _ ih => exact ih
  | compare _ _ ih _ => intro k hk; cases hk; exact (ih _ rfl).append _
  | term _ ih => exact ih
  | add _ _ ih _ => intro k hk; cases hk; exact (ih _ rfl).append _
  | sub _ _ ih _ => intro k hk; cases hk; exact (ih _ rfl).append _
  | factor _ ih => exact ih
  | mul _ _ ih _ => intro k hk; cases hk; exact (ih _ rfl).append _
  | primary _ ih => intro k hk; cases hk; exact (ih _ rfl).less
  | neg _ _ => intro k hk; cases hk; exact ⟨_, _, rfl, rfl, rfl, rfl, fun _ => rfl, fun h => by omega⟩
  | atom _ ih => exact ih
  | attr _ _ ih => intro k hk; cases hk; exact (ih _ rfl).append _
  | index _ _ ih _ => intro k hk; cases hk; rw [List.append_assoc]; exact (ih _ rfl).append _
  | slice _ _ _ ih _ _ => intro k hk; cases hk; simp only [List.append_assoc]; exact (ih _ rfl).append _
  | call _ _ ih _ => intro k hk; cases hk; rw [List.append_assoc]; exact (ih _ rfl).append _
  | callGenerator _ _ ih _ => intro k hk; cases hk; rw [List.append_assoc]; exact (ih _ rfl).append _
  | name hx => intro k hk; cases hk; exact ⟨_, _, rfl, rfl, rfl, rfl, fun _ => identifier_ne hx not_keyword, fun _ => rfl⟩
  | none => intro k hk; cases hk; exact ⟨_, _, rfl, rfl, rfl, rfl, fun _ => rfl, fun _ => rfl⟩
  | true => intro k hk; cases hk; exact ⟨_, _, rfl, rfl, rfl, rfl, fun _ => rfl, fun _ => rfl⟩
  | false => intro k hk; cases hk; exact ⟨_, _, rfl, rfl, rfl, rfl, fun _ => rfl, fun _ => rfl⟩
  | int => intro k hk; cases hk; exact ⟨_, _, rfl, rfl, rfl, rfl, fun _ => rfl, fun _ => rfl⟩
  | float => intro k hk; cases hk; exact ⟨_, _, rfl, rfl, rfl, rfl, fun _ => rfl, fun _ => rfl⟩
  | str => intro k hk; cases hk; exact ⟨_, _, rfl, rfl, rfl, rfl, fun _ => rfl, fun _ => rfl⟩
  | bytes => intro k hk; cases hk; exact ⟨_, _, rfl, rfl, rfl, rfl, fun _ => rfl, fun _ => rfl⟩
  | parenthesized _ _ => intro k hk; cases hk; exact ⟨_, _, rfl, rfl, rfl, rfl, fun _ => rfl, fun _ => rfl⟩
  | tuple _ _ _ _ => intro k hk; cases hk; exact ⟨_, _, rfl, rfl, rfl, rfl, fun _ => rfl, fun _ => rfl⟩
  | list _ _ => intro k hk; cases hk; exact ⟨_, _, rfl, rfl, rfl, rfl, fun _ => rfl, fun _ => rfl⟩
  | listComprehension _ _ => intro k hk; cases hk; exact ⟨_, _, rfl, rfl, rfl, rfl, fun _ => rfl, fun _ => rfl⟩
  | _ => intro k hk; cases hk

theorem compOperator_next {op : Cmp} {o : List Tok} (h : CompOperator op o) (ts : List Tok) : nextIs n!"=" (o ++ ts) = false := by
  cases h <;> rfl

theorem comparisons_next {op : Cmp} {r tail : Ex} {v : List Tok} (h : Derives .comparisons (.cmp op r tail) v) (ts : List Tok) :
    nextIs n!"=" (v ++ ts) = false := by
  cases h with
  | comparisons ho _ _ => rw [List.append_assoc, List.append_assoc]; exact compOperator_next ho _

theorem keywordArg_name {x : Name} {ts : List Tok} (h : nextIs n!"=" ts = false) : keywordArg (.name x :: ts) = false := by
  cases ts with
  | nil => rfl
  | cons t ts =>
    cases t with
    | op c => replace h : Nat.beq c n!"=" = false := h; simp only [keywordArg, h, Bool.false_and]
    | _ => rfl

theorem keywordArg_keyword {x : Name} (hx : x ∈ keywords) (ts : List Tok) : keywordArg (.name x :: ts) = false := by
  cases h : keywordArg (.name x :: ts)
  · rfl
  · obtain ⟨y, us, e, hy⟩ := keywordArg_some h
    cases e
    exact absurd (keywords_reserved.1 _ hx) hy

/-- An expression never begins like an argument with a name. -/
theorem derives_noName {p : Phrase} {e : Ex} {u : List Tok} (h : Derives p e u) :
    ∀ k, level p = some k → ∀ ts, nextIs n!"=" ts = false → keywordArg (u ++ ts) = false := by
  induction h with
  | test _ ih => exact ih
  | conditional _ _ _ ih _ _ => intro k _ ts _; flat; exact ih _ rfl _ rfl
  | notTest _ ih => exact ih
  | and _ _ ih _ => intro k _ ts _; flat; exact ih _ rfl _ rfl
  | comparison _ ih => intro k _; exact ih _ rfl
  | @not _ u _ _ =>
    intro k _ ts _
    exact keywordArg_keyword not_keyword _
  | operand _ ih => exact ih
  | compare _ hv ih _ => intro k _ ts _; flat; exact ih _ rfl _ (comparisons_next hv _)
  | term _ ih => exact ih
  | add _ _ ih _ => intro k _ ts _; flat; exact ih _ rfl _ rfl
  | sub _ _ ih _ => intro k _ ts _; flat; exact ih _ rfl _ rfl
  | factor _ ih => exact ih
  | mul _ _ ih _ => intro k _ ts _; flat; exact ih _ rfl _ rfl
  | primary _ ih => intro k _; exact ih _ rfl
  | neg _ _ => intro k _ ts _; rfl
  | atom _ ih => exact ih
  | attr _ _ ih => intro k _ ts _; flat; exact ih _ rfl _ rfl
  | index _ _ ih _ => intro k _ ts _; flat; exact ih _ rfl _ rfl
  | slice _ _ _ ih _ _ => intro k _ ts _; flat; exact ih _ rfl _ rfl
  | call _ _ ih _ => intro k _ ts _; flat; exact ih _ rfl _ rfl
  | callGenerator _ _ ih _ => intro k _ ts _; flat; exact ih _ rfl _ rfl
  | name hx => intro k _ ts hts; exact keywordArg_name hts
  | none => intro k _ ts hts; exact keywordArg_name hts
  | true => intro k _ ts hts; exact keywordArg_name hts
  | false => intro k _ ts hts; exact keywordArg_name hts
  | int => intro k _ ts _; rfl
  | float => intro k _ ts _; rfl
  | str => intro k _ ts _; rfl
  | bytes => intro k _ ts _; rfl
  | parenthesized _ _ => intro k _ ts _; rfl
  | tuple _ _ _ _ => intro k _ ts _; rfl
  | list _ _ => intro k _ ts _; rfl
  | listComprehension _ _ => intro k _ ts _; rfl
  | _ => intro k hk; cases hk

/-! ## what may follow a phrase -/

/-- Nothing here that goes on with a primary. -/
structure Stops0 (ts : List Tok) : Prop where
  dot : nextIs n!"." ts = false
  paren : nextIs n!"(" ts = false
  bracket : nextIs n!"[" ts = false

/-- Nothing here that goes on with a product. -/
structure Stops1 (ts : List Tok) : Prop extends Stops0 ts where
  star : nextIs n!"*" ts = false

/-- Nothing here that goes on with a sum. -/
structure Stops2 (ts : List Tok) : Prop extends Stops1 ts where
  plus : nextIs n!"+" ts = false
  minus : nextIs n!"-" ts = false

/-- Nothing here that goes on with a comparison. -/
structure Stops3 (ts : List Tok) : Prop extends Stops2 ts where
  cmp : cmpOp ts = none

/-- Nothing here that goes on with a test. -/
structure Stops4 (ts : List Tok) : Prop extends Stops3 ts where
  noAnd : nextName n!"and" ts = false

/-- Nothing here that goes on with an expression. -/
structure Stops5 (ts : List Tok) : Prop extends Stops4 ts where
  noIf : nextName n!"if" ts = false

/-- By the next token. -/
macro "stops" : tactic => `(tactic| (repeat' constructor))

/-- What the parser does with each kind of phrase. -/
def Complete : Phrase → Ex → List Tok → Prop
  | .expression, e, u => ∀ rest, Stops5 rest → Parses .expr (u ++ rest) (e, rest)
  | .and_test, e, u => ∀ rest, Stops4 rest → Parses .andTest (u ++ rest) (e, rest)
  | .not_test, e, u => ∀ rest, Stops3 rest → Parses .notTest (u ++ rest) (e, rest)
  | .comparison, e, u => ∀ rest, Stops3 rest → Parses .comparison (u ++ rest) (e, rest)
  | .comparisons, e, u => ∀ rest, Stops3 rest → Parses .compareTail (u ++ rest) (e, rest)
  | .a_expr, e, u => ∀ rest r, Stops1 rest → Parses (.sumTail e) rest r → Parses .sum (u ++ rest) r
  | .m_expr, e, u => ∀ rest r, Stops0 rest → Parses (.productTail e) rest r → Parses .product (u ++ rest) r
  | .u_expr, e, u => ∀ rest, Stops0 rest → Parses .unary (u ++ rest) (e, rest)
  | .primary, e, u => ∀ rest r, Parses (.trailers e) rest r → Parses .unary (u ++ rest) r
  | .atom, e, u => ∀ rest, Parses .atom (u ++ rest) (e, rest)
  | .comprehension, e, u => ∃ l v w, u = v ++ key n!"for" :: w ∧ Derives .expression l v ∧ (∀ rest, Stops5 rest → Parses .expr (v ++ rest) (l, rest)) ∧
      ∀ close rest, close = n!")" ∨ close = n!"]" → Parses (.generator close l) (w ++ sym close :: rest) (e, rest)
  | .arguments named, e, u => (∀ rest, Parses (.args named) (u ++ sym n!")" :: rest) (e, rest)) ∧
      (named = false → ∀ rest, Parses .callArgs (u ++ sym n!")" :: rest) (e, rest))
  | .otherArguments named, e, u => ∀ rest, Parses (.moreArgs named) (u ++ sym n!")" :: rest) (e, rest)
  | .elements, e, u => (∀ close rest, close = n!")" ∨ close = n!"]" → Parses (.items close) (u ++ sym close :: rest) (e, rest)) ∧
      ∀ rest, Parses .listDisplay (u ++ sym n!"]" :: rest) (.list e, rest)
  | .otherElements, e, u => ∀ close rest, close = n!")" ∨ close = n!"]" → Parses (.moreItems close) (u ++ sym close :: rest) (e, rest)

theorem nextName_key (x : Name) (ts : List Tok) : nextName x (key x :: ts) = true := Nat.beq_refl x
theorem nextIs_sym (c : Nat) (ts : List Tok) : nextIs c (sym c :: ts) = true := Nat.beq_refl c
theorem expectName_key {α : Type u} (x : Name) (ts : List Tok) (k : List Tok → Option α) : expectName x (key x :: ts) k = k ts := by
  show cond (Nat.beq x x) _ _ = _; rw [Nat.beq_refl]; rfl
theorem expect_sym {α : Type u} (c : Nat) (ts : List Tok) (k : List Tok → Option α) : expect c (sym c :: ts) k = k ts := by
  show cond (Nat.beq c c) _ _ = _; rw [Nat.beq_refl]; rfl
theorem identifier_name {α : Type u} {x : Name} (hx : Identifier x) (ts : List Tok) (k : Name → List Tok → Option α) :
    identifier (.name x :: ts) k = k x ts := by
  show cond (isKeyword x keywords) _ _ = _; rw [isKeyword_false.2 hx]; rfl

/-- Execute one step of the parser. -/
syntax "go" "[" term,* "]" : tactic
macro_rules
  | `(tactic| go [$xs,*]) => `(tactic| simp only [parseStep, Res.then, cond_true, cond_false, List.tail_cons, nextName_key, nextIs_sym, expectName_key,
      expect_sym, Bool.or_false, Bool.false_or, $[$xs:term],*])

theorem sumTail_stops {e : Ex} {rest : List Tok} (h : Stops2 rest) : Parses (.sumTail e) rest (e, rest) :=
  .step0 fun p => by go [h.plus, h.minus]

theorem productTail_stops {e : Ex} {rest : List Tok} (h : Stops1 rest) : Parses (.productTail e) rest (e, rest) :=
  .step0 fun p => by go [h.star]

theorem trailers_stops {e : Ex} {rest : List Tok} (h : Stops0 rest) : Parses (.trailers e) rest (e, rest) :=
  .step0 fun p => by go [h.dot, h.paren, h.bracket]

theorem First.not_minus {u : List Tok} (h : First 2 u) (ts : List Tok) : nextIs n!"-" (u ++ ts) = false := by
  obtain ⟨t, us, rfl, _, _, _, _, h⟩ := h
  exact h (by omega)

theorem First.not_not {u : List Tok} (h : First 1 u) (ts : List Tok) : nextName n!"not" (u ++ ts) = false := by
  obtain ⟨t, us, rfl, _, _, _, h, _⟩ := h
  exact h (by omega)

theorem First.not_paren {k : Nat} {u : List Tok} (h : First k u) (ts : List Tok) : nextIs n!")" (u ++ ts) = false := by
  obtain ⟨t, us, rfl, h, _⟩ := h
  exact h

theorem First.not_bracket {k : Nat} {u : List Tok} (h : First k u) (ts : List Tok) : nextIs n!"]" (u ++ ts) = false := by
  obtain ⟨t, us, rfl, _, h, _⟩ := h
  exact h

theorem First.not_star {k : Nat} {u : List Tok} (h : First k u) (ts : List Tok) : nextIs n!"*" (u ++ ts) = false := by
  obtain ⟨t, us, rfl, _, _, h, _⟩ := h
  exact h

theorem compOperator_stops {op : Cmp} {o : List Tok} (h : CompOperator op o) (ts : List Tok) : Stops2 (o ++ ts) := by
  cases h <;> stops

theorem compOperator_cmpOp {op : Cmp} {o : List Tok} (h : CompOperator op o) {u : List Tok} (hu : First 1 u) (ts : List Tok) :
    cmpOp (o ++ (u ++ ts)) = some (op, u ++ ts) := by
  cases h with
  | is =>
    obtain ⟨t, us, rfl, _, _, _, h, _⟩ := hu
    have hn := h (by omega)
    show cmpOp (.name n!"is" :: t :: (us ++ ts)) = _
    simp only [cmpOp, Nat.beq_refl, cond_true, hn, cond_false]
    rfl
  | _ => rfl

theorem otherArguments_next {m : Bool} {e : Ex} {v : List Tok} (h : Derives (.otherArguments m) e v) (ts : List Tok) :
    Stops5 (v ++ sym n!")" :: ts) ∧ nextName n!"for" (v ++ sym n!")" :: ts) = false ∧ nextIs n!"=" (v ++ sym n!")" :: ts) = false := by
  cases h
  · exact ⟨by stops, rfl, rfl⟩
  · exact ⟨by stops, rfl, rfl⟩

theorem otherElements_next {e : Ex} {v : List Tok} (h : Derives .otherElements e v) {c : Nat} (hc : c = n!")" ∨ c = n!"]") (ts : List Tok) :
    Stops5 (v ++ sym c :: ts) ∧ nextName n!"for" (v ++ sym c :: ts) = false := by
  cases h
  · rcases hc with rfl | rfl <;> exact ⟨by stops, rfl⟩
  · rcases hc with rfl | rfl <;> exact ⟨by stops, rfl⟩

theorem nextIs_other (c d : Nat) (h : Nat.beq d c = false) (ts : List Tok) : nextIs c (sym d :: ts) = false := h
theorem nextIs_name (c : Nat) (x : Name) (ts : List Tok) : nextIs c (.name x :: ts) = false := rfl
theorem beq_brackets : Nat.beq n!"[" n!"(" = false := rfl

theorem complete {p : Phrase} {e : Ex} {u : List Tok} (h : Derives p e u) : Complete p e u := by
  induction h with
  | test _ ih => exact fun rest hs => .step1 (ih rest hs.toStops4) fun p h1 => by go [h1, hs.noIf]
  | @conditional a u c v b w _ _ _ ih1 ih2 ih3 =>
    intro rest hs
    flat
    exact .step3 (ih1 (key n!"if" :: (v ++ key n!"else" :: (w ++ rest))) (by stops)) (ih2 (key n!"else" :: (w ++ rest)) (by stops)) (ih3 rest hs)
      fun p h1 h2 h3 => by go [h1, h2, h3]
  | notTest _ ih => exact fun rest hs => .step1 (ih rest hs.toStops3) fun p h1 => by go [h1, hs.noAnd]
  | @and a u b v _ _ ih1 ih2 =>
    intro rest hs
    flat
    exact .step2 (ih1 (key n!"and" :: (v ++ rest)) (by stops)) (ih2 rest hs) fun p h1 h2 => by go [h1, h2]
  | comparison hu ih => exact fun rest hs => .step1 (ih rest hs) fun p h1 => by go [h1, (derives_first hu _ rfl).not_not]
  | not _ ih => exact fun rest hs => .step1 (ih rest hs) fun p h1 => by flat; go [h1]
  | operand _ ih =>
    exact fun rest hs => .step2 (ih rest _ hs.toStops1 (sumTail_stops hs.toStops2)) (.step0 (g := .compareTail) (ts := rest) (r := (.cmpNil, rest)) fun p => by go [hs.cmp])
      fun p h1 h2 => by go [h1, h2]
  | @compare l u op r tail v _ hv ih1 ih2 =>
    intro rest hs
    flat
    have h2 : Stops2 (v ++ rest) := by
      cases hv with
      | comparisons ho _ _ => flat; exact compOperator_stops ho _
    exact .step2 (ih1 (v ++ rest) _ h2.toStops1 (sumTail_stops h2)) (ih2 rest hs) fun p h1 h2 => by go [h1, h2]
  | noComparison => exact fun rest hs => .step0 fun p => by flat; go [hs.cmp]
  | @comparisons op o r u tail v ho hu hv ih1 ih2 =>
    intro rest hs
    flat
    have h2 : Stops2 (v ++ rest) := by
      cases hv with
      | noComparison => exact hs.toStops2
      | comparisons ho _ _ => flat; exact compOperator_stops ho _
    exact .step2 (ih1 (v ++ rest) _ h2.toStops1 (sumTail_stops h2)) (ih2 rest hs) fun p h1 h2 => by
      go [compOperator_cmpOp ho (derives_first hu _ rfl), h1, h2]
  | term _ ih => exact fun rest r hs hr => .step2 (ih rest _ hs.toStops0 (productTail_stops hs)) hr fun p h1 h2 => by go [h1, h2]
  | @add l u r v _ _ ih1 ih2 =>
    intro rest q hs hq
    flat
    refine ih1 (sym n!"+" :: (v ++ rest)) q (by stops) ?_
    exact .step2 (ih2 rest _ hs.toStops0 (productTail_stops hs)) hq fun p h1 h2 => by go [h1, h2]
  | @sub l u r v _ _ ih1 ih2 =>
    intro rest q hs hq
    flat
    refine ih1 (sym n!"-" :: (v ++ rest)) q (by stops) ?_
    exact .step2 (ih2 rest _ hs.toStops0 (productTail_stops hs)) hq fun p h1 h2 => by
      go [h1, h2, nextIs_other n!"+" n!"-" rfl]
  | factor _ ih => exact fun rest r hs hr => .step2 (ih rest hs) hr fun p h1 h2 => by go [h1, h2]
  | @mul l u r v _ _ ih1 ih2 =>
    intro rest q hs hq
    flat
    refine ih1 (sym n!"*" :: (v ++ rest)) q (by stops) ?_
    exact .step2 (ih2 rest hs) hq fun p h1 h2 => by go [h1, h2]
  | primary _ ih => exact fun rest hs => ih rest _ (trailers_stops hs)
  | neg _ ih => exact fun rest hs => .step1 (ih rest hs) fun p h1 => by flat; go [h1]
  | atom hu ih => exact fun rest r hr => .step2 (ih rest) hr fun p h1 h2 => by go [h1, h2, (derives_first hu _ rfl).not_minus]
  | @attr e u a _ ha ih =>
    intro rest r hr
    flat
    exact ih _ r (.step1 hr fun p h1 => by go [h1, identifier_name ha])
  | @index e u i v _ _ ih1 ih2 =>
    intro rest r hr
    flat
    refine ih1 (sym n!"[" :: (v ++ sym n!"]" :: rest)) r (.step2 (ih2 (sym n!"]" :: rest) (by stops)) hr fun p h1 h2 => ?_)
    go [h1, h2, nextIs_other n!"." n!"[" rfl, nextIs_other n!"(" n!"[" rfl,
      nextIs_other n!":" n!"]" rfl]
  | @slice e u i v j w _ _ _ ih1 ih2 ih3 =>
    intro rest r hr
    flat
    refine ih1 (sym n!"[" :: (v ++ sym n!":" :: (w ++ sym n!"]" :: rest))) r
      (.step3 (ih2 (sym n!":" :: (w ++ sym n!"]" :: rest)) (by stops)) (ih3 (sym n!"]" :: rest) (by stops)) hr fun p h1 h2 h3 => ?_)
    go [h1, h2, h3, nextIs_other n!"." n!"[" rfl,
      nextIs_other n!"(" n!"[" rfl]
  | @call f u as v _ _ ih1 ih2 =>
    intro rest r hr
    flat
    refine ih1 (sym n!"(" :: (v ++ sym n!")" :: rest)) r (.step2 (ih2.2 rfl rest) hr fun p h1 h2 => ?_)
    go [h1, h2, nextIs_other n!"." n!"(" rfl]
  | @callGenerator f u g v _ _ ih1 ih2 =>
    intro rest r hr
    obtain ⟨l, a, b, rfl, hl, h1, h2⟩ := ih2
    flat
    have hc : Parses .callArgs (a ++ key n!"for" :: (b ++ sym n!")" :: rest)) (.arg g .argNil, rest) :=
      .step2 (h1 (key n!"for" :: (b ++ sym n!")" :: rest)) (by stops)) (h2 _ rest (Or.inl rfl)) fun p h1 h2 => by
        have hf := derives_first hl _ rfl
        go [h1, h2, hf.not_paren, hf.not_star, derives_noName hl _ rfl (key n!"for" :: (b ++ sym n!")" :: rest)) rfl]
    refine ih1 (sym n!"(" :: (a ++ key n!"for" :: (b ++ sym n!")" :: rest))) r (.step2 hc hr fun p h1 h2 => ?_)
    go [h1, h2, nextIs_other n!"." n!"(" rfl]
  | @name x hx =>
    refine fun rest => .step0 fun p => ?_
    show parseStep p .atom (.name x :: rest) = _
    go [identifier_ne hx ((isKeyword_iff n!"None" _).1 rfl), identifier_ne hx ((isKeyword_iff n!"True" _).1 rfl),
      identifier_ne hx ((isKeyword_iff n!"False" _).1 rfl), isKeyword_false.2 hx]
  | none => exact fun rest => .step0 fun p => rfl
  | true => exact fun rest => .step0 fun p => rfl
  | false => exact fun rest => .step0 fun p => rfl
  | int => exact fun rest => .step0 fun p => rfl
  | float => exact fun rest => .step0 fun p => rfl
  | str => exact fun rest => .step0 fun p => rfl
  | bytes => exact fun rest => .step0 fun p => rfl
  | parenthesized _ ih =>
    intro rest
    flat
    exact .step1 (ih (sym n!")" :: rest) (by stops)) fun p h1 => by go [h1, Nat.beq_refl]
  | @tuple e u es v _ _ ih1 ih2 =>
    intro rest
    flat
    exact .step2 (ih1 (sym n!"," :: (v ++ sym n!")" :: rest)) (by stops)) (ih2.1 _ rest (Or.inl rfl)) fun p h1 h2 => by
      go [h1, h2, Nat.beq_refl, nextIs_other n!")" n!"," rfl]
  | list _ ih =>
    intro rest
    flat
    exact .step1 (ih.2 rest) fun p h1 => by go [h1, Nat.beq_refl, beq_brackets]
  | @listComprehension g u _ ih =>
    intro rest
    obtain ⟨l, a, b, rfl, hl, h1, h2⟩ := ih
    flat
    have hc : Parses .listDisplay (a ++ key n!"for" :: (b ++ sym n!"]" :: rest)) (g, rest) :=
      .step2 (h1 (key n!"for" :: (b ++ sym n!"]" :: rest)) (by stops)) (h2 _ rest (Or.inr rfl)) fun p h1 h2 => by
        have hf := derives_first hl _ rfl
        go [h1, h2, hf.not_bracket, hf.not_star]
    exact .step1 hc fun p h1 => by go [h1, Nat.beq_refl, beq_brackets]
  | @comp e u x it v hl hx _ ih1 ih2 =>
    refine ⟨e, u, .name x :: key n!"in" :: v, rfl, hl, ih1, fun close rest hc => ?_⟩
    flat
    have hs : Stops5 (sym close :: rest) := by rcases hc with rfl | rfl <;> stops
    exact .step1 (ih2 (sym close :: rest) hs.toStops4) fun p h1 => by go [h1, identifier_name hx, hs.noIf]
  | @compIf e u x it v c w hl hx _ _ ih1 ih2 ih3 =>
    refine ⟨e, u, .name x :: key n!"in" :: v ++ key n!"if" :: w, by flat, hl, ih1, fun close rest hc => ?_⟩
    flat
    have hs : Stops4 (sym close :: rest) := by rcases hc with rfl | rfl <;> stops
    exact .step2 (ih2 (key n!"if" :: (w ++ sym close :: rest)) (by stops)) (ih3 (sym close :: rest) hs) fun p h1 h2 => by go [h1, h2, identifier_name hx]
  | @noArguments m =>
    have h (rest : List Tok) : Parses (.args m) (sym n!")" :: rest) (.argNil, rest) := .step0 fun p => by go []
    exact ⟨h, fun hm rest => by cases hm; exact .step1 (h rest) fun p h1 => by flat; go [h1, Bool.true_or]⟩
  | @positional e u es v hu hv ih1 ih2 =>
    have hf := derives_first hu _ rfl
    refine ⟨fun rest => ?_, fun _ rest => ?_⟩
    all_goals
      obtain ⟨n1, n2, n3⟩ := otherArguments_next hv rest
      flat
      exact .step2 (ih1 (v ++ sym n!")" :: rest) n1) (ih2 rest) fun p h1 h2 => by
        go [h1, h2, hf.not_paren, hf.not_star, derives_noName hu _ rfl _ n3, n2]
  | @keyword x e u es v m hx hu hv ih1 ih2 =>
    have h (rest : List Tok) : Parses (.args m) (.name x :: sym n!"=" :: (u ++ (v ++ sym n!")" :: rest))) (.kw x e es, rest) := by
      obtain ⟨n1, n2, n3⟩ := otherArguments_next hv rest
      have hk : keywordArg (.name x :: sym n!"=" :: (u ++ (v ++ sym n!")" :: rest))) = Bool.true := by
        simp only [keywordArg, Nat.beq_refl, isKeyword_false.2 hx]; rfl
      exact .step2 (ih1 (v ++ sym n!")" :: rest) n1) (ih2 rest) fun p h1 h2 => by
        go [h1, h2, hk, identifier_name hx, nextIs_name n!")" x,
          nextIs_name n!"*" x]
    refine ⟨fun rest => by flat; exact h rest, fun hm rest => ?_⟩
    cases hm
    flat
    have hk : keywordArg (.name x :: sym n!"=" :: (u ++ (v ++ sym n!")" :: rest))) = Bool.true := by
      simp only [keywordArg, Nat.beq_refl, isKeyword_false.2 hx]; rfl
    exact .step1 (h rest) fun p h1 => by go [h1, hk, Bool.or_true]
  | @starred e u m es v hu hv ih1 ih2 =>
    have h (rest : List Tok) : Parses (.args m) (sym n!"*" :: (u ++ (v ++ sym n!")" :: rest))) (.star e es, rest) := by
      obtain ⟨n1, n2, n3⟩ := otherArguments_next hv rest
      exact .step2 (ih1 (v ++ sym n!")" :: rest) n1) (ih2 rest) fun p h1 h2 => by
        go [h1, h2, nextIs_other n!")" n!"*" rfl]
    refine ⟨fun rest => by flat; exact h rest, fun hm rest => ?_⟩
    cases hm
    flat
    exact .step1 (h rest) fun p h1 => by go [h1, Bool.or_true, Bool.true_or]
  | noOtherArguments =>
    exact fun rest => .step0 fun p => by
      flat
      go [nextIs_other n!"," n!")" rfl]
  | otherArguments _ ih => exact fun rest => .step1 (ih.1 rest) fun p h1 => by flat; go [h1]
  | noElements =>
    have h (close : Nat) (rest : List Tok) : Parses (.items close) (sym close :: rest) (.argNil, rest) := .step0 fun p => by go []
    exact ⟨fun close rest _ => h close rest, fun rest => .step1 (h n!"]" rest) fun p h1 => by flat; go [h1, Bool.true_or]⟩
  | @element e u es v hu hv ih1 ih2 =>
    have hf := derives_first hu _ rfl
    refine ⟨fun close rest hc => ?_, fun rest => ?_⟩
    · obtain ⟨n1, n2⟩ := otherElements_next hv hc rest
      flat
      have hn : nextIs close (u ++ (v ++ sym close :: rest)) = Bool.false := by
        rcases hc with rfl | rfl
        · exact hf.not_paren _
        · exact hf.not_bracket _
      exact .step2 (ih1 (v ++ sym close :: rest) n1) (ih2 _ rest hc) fun p h1 h2 => by go [h1, h2, hn, hf.not_star]
    · obtain ⟨n1, n2⟩ := otherElements_next hv (Or.inr rfl) rest
      flat
      exact .step2 (ih1 (v ++ sym n!"]" :: rest) n1) (ih2 _ rest (Or.inr rfl)) fun p h1 h2 => by go [h1, h2, hf.not_bracket, hf.not_star, n2]
  | @starredElement e u es v hu hv ih1 ih2 =>
    have h (close : Nat) (rest : List Tok) (hc : close = n!")" ∨ close = n!"]") :
        Parses (.items close) (sym n!"*" :: (u ++ (v ++ sym close :: rest))) (.star e es, rest) := by
      obtain ⟨n1, n2⟩ := otherElements_next hv hc rest
      have hn : nextIs close (sym n!"*" :: (u ++ (v ++ sym close :: rest))) = Bool.false := by rcases hc with rfl | rfl <;> rfl
      exact .step2 (ih1 (v ++ sym close :: rest) n1) (ih2 _ rest hc) fun p h1 h2 => by go [h1, h2, hn]
    refine ⟨fun close rest hc => by flat; exact h close rest hc, fun rest => ?_⟩
    flat
    exact .step1 (h n!"]" rest (Or.inr rfl)) fun p h1 => by go [h1, Bool.or_true]
  | noOtherElements =>
    exact fun close rest hc => .step0 fun p => by
      flat
      have hn : nextIs n!"," (sym close :: rest) = Bool.false := by rcases hc with rfl | rfl <;> rfl
      go [hn]
  | otherElements _ ih => exact fun close rest hc => .step1 (ih.1 close rest hc) fun p h1 => by flat; go [h1]

end Genie.Src.Text
