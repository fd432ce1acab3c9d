import Verif.Proof.Source.Statements
import Verif.Proof.Source.GrammarComplete
/-!
# What is a module by the grammar is read (for C72)
-/

namespace Genie.Src.Text

/-- With enough room. -/
def Ev (P : Nat → Prop) : Prop := ∃ least, ∀ n, least ≤ n → P n

theorem Ev.always {P : Nat → Prop} (h : ∀ n, P n) : Ev P := ⟨0, fun n _ => h n⟩

theorem Ev.mono {P Q : Nat → Prop} (h : Ev P) (hpq : ∀ n, P n → Q n) : Ev Q := by
  obtain ⟨l, h⟩ := h
  exact ⟨l, fun n hn => hpq n (h n hn)⟩

theorem Ev.and {P Q : Nat → Prop} (h : Ev P) (h' : Ev Q) : Ev fun n => P n ∧ Q n := by
  obtain ⟨l, h⟩ := h
  obtain ⟨l', h'⟩ := h'
  exact ⟨l + l', fun n hn => ⟨h n (by omega), h' n (by omega)⟩⟩

theorem Ev.succ {P Q : Nat → Prop} (h : Ev P) (hpq : ∀ n, P n → Q (n + 1)) : Ev Q := by
  obtain ⟨l, h⟩ := h
  refine ⟨l + 1, fun n hn => ?_⟩
  obtain ⟨m, rfl⟩ : ∃ m, n = m + 1 := ⟨n - 1, by omega⟩
  exact hpq m (h m (by omega))

/-! ## how statements begin -/

/-- How expressions begin: a name is no keyword but `None`, `True`, `False` and `not`; and there is no `@`. -/
def Begins (u : List Tok) : Prop := ∃ t ts, u = t :: ts ∧ t.is n!"@" = false ∧
  ∀ x, t = .name x → Identifier x ∨ x ∈ [n!"None", n!"True", n!"False", n!"not"]

theorem Begins.append {u : List Tok} (h : Begins u) (v : List Tok) : Begins (u ++ v) := by
  obtain ⟨t, ts, rfl, h⟩ := h
  exact ⟨t, ts ++ v, rfl, h⟩

theorem derives_begins {p : Phrase} {e : Ex} {u : List Tok} (h : Derives p e u) : ∀ k, level p = some k → Begins u := by
  have sy (c : Nat) (ts : List Tok) (hc : Nat.beq c n!"@" = false) : Begins (sym c :: ts) := ⟨_, _, rfl, hc, fun x h => by cases h⟩
  induction h with
  | test _ ih => exact fun _ _ => ih 0 rfl
  | conditional _ _ _ ih _ _ => intro k hk; rw [List.append_assoc]; exact (ih 0 rfl).append _
  | notTest _ ih => exact fun _ _ => ih 0 rfl
  | and _ _ ih _ => intro k hk; exact (ih 0 rfl).append _
  | comparison _ ih => exact fun _ _ => ih 1 rfl
  | not _ _ => intro k hk; exact ⟨_, _, rfl, rfl, fun x h => by cases h; exact .inr (by decide)⟩
  | operand _ ih => exact fun _ _ => ih 1 rfl
  | compare _ _ ih _ => intro k hk; exact (ih 1 rfl).append _
  | term _ ih => exact fun _ _ => ih 1 rfl
  | add _ _ ih _ => intro k hk; exact (ih 1 rfl).append _
  | sub _ _ ih _ => intro k hk; exact (ih 1 rfl).append _
  | factor _ ih => exact fun _ _ => ih 1 rfl
  | mul _ _ ih _ => intro k hk; exact (ih 1 rfl).append _
  | primary _ ih => exact fun _ _ => ih 2 rfl
  | neg _ _ => exact fun _ _ => sy _ _ rfl
  | atom _ ih => exact fun _ _ => ih 2 rfl
  | attr _ _ ih => intro k hk; exact (ih 2 rfl).append _
  | index _ _ ih _ => intro k hk; rw [List.append_assoc]; exact (ih 2 rfl).append _
  | slice _ _ _ ih _ _ => intro k hk; simp only [List.append_assoc]; exact (ih 2 rfl).append _
  | call _ _ ih _ => intro k hk; rw [List.append_assoc]; exact (ih 2 rfl).append _
  | callGenerator _ _ ih _ => intro k hk; rw [List.append_assoc]; exact (ih 2 rfl).append _
  | name hx => intro k hk; exact ⟨_, _, rfl, rfl, fun x h => by cases h; exact .inl hx⟩
  | none => intro k hk; exact ⟨_, _, rfl, rfl, fun x h => by cases h; exact .inr (by decide)⟩
  | true => intro k hk; exact ⟨_, _, rfl, rfl, fun x h => by cases h; exact .inr (by decide)⟩
  | false => intro k hk; exact ⟨_, _, rfl, rfl, fun x h => by cases h; exact .inr (by decide)⟩
  | int => intro k hk; exact ⟨_, _, rfl, rfl, fun x h => by cases h⟩
  | float => intro k hk; exact ⟨_, _, rfl, rfl, fun x h => by cases h⟩
  | str => intro k hk; exact ⟨_, _, rfl, rfl, fun x h => by cases h⟩
  | bytes => intro k hk; exact ⟨_, _, rfl, rfl, fun x h => by cases h⟩
  | parenthesized _ _ => exact fun _ _ => sy _ _ rfl
  | tuple _ _ _ _ => exact fun _ _ => sy _ _ rfl
  | list _ _ => exact fun _ _ => sy _ _ rfl
  | listComprehension _ _ => exact fun _ _ => sy _ _ rfl
  | _ => intro k hk; cases hk

/-- The keywords with which statements begin. -/
def statementWords : List Name :=
  [n!"assert", n!"return", n!"raise", n!"if", n!"for", n!"else", n!"elif", n!"import", n!"from", n!"class", n!"def"]

theorem statementWords_keywords : ∀ x ∈ statementWords, x ∈ keywords ∧ x ∉ [n!"None", n!"True", n!"False", n!"not"] := by decide

theorem Begins.no {u : List Tok} (h : Begins u) {x : Name} (hx : x ∈ statementWords) : nextName x u = false := by
  obtain ⟨t, ts, rfl, _, h⟩ := h
  show t.isName x = false
  cases t with
  | name y =>
    obtain ⟨h1, h2⟩ := statementWords_keywords x hx
    rcases h y rfl with h | h
    · exact identifier_ne h h1
    · cases e : Nat.beq y x
      · exact e
      · exact absurd (Nat.eq_of_beq_eq_true e ▸ h) h2
  | _ => rfl

theorem Begins.no_at {u : List Tok} (h : Begins u) : nextIs n!"@" u = false := by
  obtain ⟨t, ts, rfl, h, _⟩ := h
  exact h

theorem expr_begins {e : Ex} {u : List Tok} (h : Derives .expression e u) : Begins u := derives_begins h 0 rfl

theorem identifier_begins {x : Name} (h : Identifier x) (u : List Tok) : Begins (.name x :: u) := ⟨_, _, rfl, rfl, fun y h' => by cases h'; exact .inl h⟩

/-! ## expressions in statements -/

theorem exprEv {e : Ex} {u rest : List Tok} (h : Derives .expression e u) (hr : Stops5 rest) :
    Ev fun n => parse n .expr (u ++ rest) = some (e, rest) := by
  obtain ⟨n, hn⟩ := Genie.Src.Text.complete h rest hr
  exact ⟨n, fun m hm => parse_le hm hn⟩

theorem stops_nil : Stops5 [] := by stops

theorem wholeEv {α : Type u} {e : Ex} {u : List Tok} (h : Derives .expression e u) :
    Ev fun n => ∀ k : Ex → Option α, wholeExpr n u k = k e :=
  (exprEv h stops_nil).mono fun n hp k => by
    rw [List.append_nil] at hp
    rw [wholeExpr, hp]
    rfl

theorem headEv {α : Type u} {e : Ex} {u : List Tok} (h : Derives .expression e u) :
    Ev fun n => ∀ k : Ex → Option α, headExpr n (u ++ [sym n!":"]) k = k e :=
  (exprEv h (rest := [sym n!":"]) (by stops)).mono fun n hp k => by
    rw [headExpr, hp]
    rfl

theorem returnedEv {α : Type u} {e : Ex} {u : List Tok} (h : Derives .expression e u) :
    Ev fun n => ∀ k : Ex → Option α, returned n u k = k e :=
  (exprEv h stops_nil).mono fun n hp k => by
    rw [List.append_nil] at hp
    rw [returned, hp]
    rfl

theorem returnedTupleEv {α : Type u} {e es : Ex} {u v : List Tok} (h : Derives .expression e u) (h' : Derives .elements es v) :
    Ev fun n => ∀ k : Ex → Option α, returned n (u ++ sym n!"," :: v) k = k (.tuple (.arg e es)) := by
  have h2 : Ev fun n => parse n (.items n!")") (v ++ [sym n!")"]) = some (es, []) := by
    obtain ⟨n, hn⟩ := (Genie.Src.Text.complete h').1 n!")" [] (.inl rfl)
    exact ⟨n, fun m hm => parse_le hm hn⟩
  refine ((exprEv h (rest := sym n!"," :: v) (by stops)).and h2).mono fun n ⟨hp, hq⟩ k => ?_
  rw [returned, hp]
  show Res.then (parse n (.items n!")") (v ++ [sym n!")"])) _ = _
  rw [hq]
  rfl

/-! ## annotations -/

theorem skipTokens_op (stop : Nat → Bool) (d c : Nat) (ts : List Tok) : skipTokens stop d (.op c :: ts) =
    cond (Nat.beq c n!"(" || Nat.beq c n!"[") (skipTokens stop (d + 1) ts)
      (match d with
      | 0 => cond (stop c || Nat.beq c n!")" || Nat.beq c n!"]") (.op c :: ts) (skipTokens stop 0 ts)
      | d + 1 => cond (Nat.beq c n!")" || Nat.beq c n!"]") (skipTokens stop d ts) (skipTokens stop (d + 1) ts)) := by
  cases d <;> rfl

/-- An annotation ends here. -/
def AnnotationEnds (stop : Nat → Bool) (rest : List Tok) : Prop :=
  rest = [] ∨ ∃ c r, rest = sym c :: r ∧ (stop c || Nat.beq c n!")" || Nat.beq c n!"]") = true ∧ (Nat.beq c n!"(" || Nat.beq c n!"[") = false

theorem beq_ne {a b : Nat} (h : a ≠ b) : Nat.beq a b = false := by
  cases e : Nat.beq a b
  · rfl
  · exact absurd (Nat.eq_of_beq_eq_true e) h

theorem skipTokens_complete {stop : Nat → Bool} {d : Nat} {u rest : List Tok} (h : Annotation stop d u) (hr : AnnotationEnds stop rest) :
    skipTokens stop d (u ++ rest) = rest := by
  induction h with
  | nil =>
    rcases hr with rfl | ⟨c, r, rfl, h1, h2⟩
    · rfl
    · rw [List.nil_append, skipTokens_op, h2, cond_false]
      simp only [h1, cond_true]
  | «open» hc _ ih =>
    rw [List.cons_append, skipTokens_op]
    rcases hc with rfl | rfl <;> exact ih
  | close hc _ ih =>
    rw [List.cons_append, skipTokens_op]
    rcases hc with rfl | rfl <;> exact ih
  | operator hc hs _ ih =>
    rename_i c d u _
    simp only [List.mem_cons, List.not_mem_nil, or_false, not_or] at hc
    obtain ⟨h1, h2, h3, h4⟩ := hc
    rw [List.cons_append, skipTokens_op, beq_ne h1, beq_ne h2, beq_ne h3, beq_ne h4]
    cases d with
    | zero => rw [hs rfl]; exact ih
    | succ d => exact ih
  | other hb ho _ ih =>
    rename_i t d u _
    cases t with
    | op c => exact absurd rfl (ho c)
    | bad => exact absurd rfl hb
    | _ => cases d <;> exact ih

theorem skipAnnotation_complete {stop : Nat → Bool} {u rest : List Tok} (h : Annotation stop 0 u) (hne : u ≠ []) (hr : AnnotationEnds stop rest)
    (h1 : stop n!"(" = false) (h2 : stop n!"[" = false) : skipAnnotation stop (u ++ rest) = rest := by
  have hs := skipTokens_complete h hr
  cases u with
  | nil => exact absurd rfl hne
  | cons t u =>
    cases t with
    | op c =>
      have hc : (stop c || Nat.beq c n!")" || Nat.beq c n!"]") = false := by
        cases h with
        | «open» hc _ =>
          rcases hc with rfl | rfl
          · rw [h1]; rfl
          · rw [h2]; rfl
        | operator hc hs _ =>
          simp only [List.mem_cons, List.not_mem_nil, or_false, not_or] at hc
          rw [hs rfl, beq_ne hc.2.2.1, beq_ne hc.2.2.2]
          rfl
        | other _ ho _ => exact absurd rfl (ho c)
      rw [List.cons_append, skipAnnotation, hc, cond_false]
      exact hs
    | _ => exact hs

/-! ## statements on a line -/

theorem targets_complete {α : Type u} {xs : List Name} {v : List Tok} (h : Names xs v) : ∀ (u : List Tok) (k : List Name → List Tok → Option α),
    targets (v ++ sym n!"=" :: u) k = k xs u := by
  induction h with
  | one hx =>
    intro u k
    show cond (isKeyword _ keywords) _ _ = _
    rw [isKeyword_false.2 hx]
    rfl
  | more hx _ ih =>
    intro u k
    show cond (isKeyword _ keywords) _ _ = _
    rw [isKeyword_false.2 hx]
    exact ih u _

theorem assert_word : n!"assert" ∈ statementWords := by decide

theorem simple_complete {α : Type u} {f : St → St} {u : List Tok} (h : SimpleStatement f u) : Ev fun n => ∀ k : (St → St) → Option α, simple n u k = k f := by
  cases h with
  | expression h =>
    refine (exprEv h stops_nil).mono fun n hp k => ?_
    rw [List.append_nil] at hp
    rw [simple, (expr_begins h).no assert_word, cond_false, hp]
    rfl
  | assert h =>
    refine (wholeEv (α := α) h).mono fun n hp k => ?_
    rw [simple, nextName_key, cond_true, List.tail_cons, hp]
  | assign ht h =>
    rename_i x t e u
    refine ((exprEv ht (rest := sym n!"=" :: u) (by stops)).and (wholeEv (α := α) h)).mono fun n ⟨ha, hb⟩ k => ?_
    rw [simple, ((expr_begins ht).append _).no assert_word, cond_false, ha]
    exact hb _
  | setAttr ht h =>
    rename_i o a t e u
    refine ((exprEv ht (rest := sym n!"=" :: u) (by stops)).and (wholeEv (α := α) h)).mono fun n ⟨ha, hb⟩ k => ?_
    rw [simple, ((expr_begins ht).append _).no assert_word, cond_false, ha]
    exact hb _
  | annotated ht hv hne h =>
    rename_i x t v e u
    have hs : skipAnnotation (Nat.beq n!"=") (v ++ sym n!"=" :: u) = sym n!"=" :: u :=
      skipAnnotation_complete hv hne (.inr ⟨_, _, rfl, rfl, rfl⟩) rfl rfl
    refine ((exprEv ht (rest := sym n!":" :: (v ++ sym n!"=" :: u)) (by stops)).and (wholeEv (α := α) h)).mono fun n ⟨ha, hb⟩ k => ?_
    rw [List.append_assoc, List.cons_append, simple, ((expr_begins ht).append _).no assert_word, cond_false, ha]
    show expect n!"=" (skipAnnotation (Nat.beq n!"=") (v ++ sym n!"=" :: u)) _ = _
    rw [hs, expect_sym, hb]
  | annotatedAttr ht hv hne h =>
    rename_i o a t v e u
    have hs : skipAnnotation (Nat.beq n!"=") (v ++ sym n!"=" :: u) = sym n!"=" :: u :=
      skipAnnotation_complete hv hne (.inr ⟨_, _, rfl, rfl, rfl⟩) rfl rfl
    refine ((exprEv ht (rest := sym n!":" :: (v ++ sym n!"=" :: u)) (by stops)).and (wholeEv (α := α) h)).mono fun n ⟨ha, hb⟩ k => ?_
    rw [List.append_assoc, List.cons_append, simple, ((expr_begins ht).append _).no assert_word, cond_false, ha]
    show expect n!"=" (skipAnnotation (Nat.beq n!"=") (v ++ sym n!"=" :: u)) _ = _
    rw [hs, expect_sym, hb]
  | augmented ht ho h =>
    rename_i x t op o e u
    cases ho
    · refine ((exprEv ht (rest := sym n!"+=" :: u) (by stops)).and (wholeEv (α := α) h)).mono fun n ⟨ha, hb⟩ k => ?_
      rw [simple, ((expr_begins ht).append _).no assert_word, cond_false, ha]
      exact hb _
    · refine ((exprEv ht (rest := sym n!"-=" :: u) (by stops)).and (wholeEv (α := α) h)).mono fun n ⟨ha, hb⟩ k => ?_
      rw [simple, ((expr_begins ht).append _).no assert_word, cond_false, ha]
      exact hb _
    · refine ((exprEv ht (rest := sym n!"*=" :: u) (by stops)).and (wholeEv (α := α) h)).mono fun n ⟨ha, hb⟩ k => ?_
      rw [simple, ((expr_begins ht).append _).no assert_word, cond_false, ha]
      exact hb _
  | unpack ht hn h =>
    rename_i x t xs v e u
    refine ((exprEv ht (rest := sym n!"," :: (v ++ sym n!"=" :: u)) (by stops)).and (wholeEv (α := α) h)).mono fun n ⟨ha, hb⟩ k => ?_
    rw [List.append_assoc, List.cons_append, simple, ((expr_begins ht).append _).no assert_word, cond_false, ha]
    show targets (v ++ sym n!"=" :: u) _ = _
    rw [targets_complete hn, hb]

theorem simple_first {f : St → St} {u : List Tok} (h : SimpleStatement f u) : Begins u ∨ ∃ v, u = key n!"assert" :: v := by
  cases h with
  | expression h => exact .inl (expr_begins h)
  | assert h => exact .inr ⟨_, rfl⟩
  | assign h _ => exact .inl ((expr_begins h).append _)
  | setAttr h _ => exact .inl ((expr_begins h).append _)
  | annotated h _ _ _ => rw [List.append_assoc]; exact .inl ((expr_begins h).append _)
  | annotatedAttr h _ _ _ => rw [List.append_assoc]; exact .inl ((expr_begins h).append _)
  | augmented h _ _ => exact .inl ((expr_begins h).append _)
  | unpack h _ _ => rw [List.append_assoc]; exact .inl ((expr_begins h).append _)

theorem simple_no {f : St → St} {u : List Tok} (h : SimpleStatement f u) {x : Name} (hx : x ∈ statementWords) (ha : x ≠ n!"assert") : nextName x u = false := by
  rcases simple_first h with h | ⟨v, rfl⟩
  · exact h.no hx
  · exact beq_ne (Ne.symm ha)

theorem simple_no_at {f : St → St} {u : List Tok} (h : SimpleStatement f u) : nextIs n!"@" u = false := by
  rcases simple_first h with h | ⟨v, rfl⟩
  · exact h.no_at
  · rfl

/-! ## blocks -/

/-- How lines of a block begin: with none of these words. -/
def outsideWords : List Name := [n!"else", n!"elif", n!"import", n!"from", n!"class", n!"def"]

theorem outside_statement : ∀ x ∈ outsideWords, x ∈ statementWords ∧ x ≠ n!"assert" := by decide

/-- The line begins like one of a block. -/
def Leads (u : List Tok) : Prop := (∀ x ∈ outsideWords, nextName x u = false) ∧ nextIs n!"@" u = false

theorem leads_key {x : Name} (hx : x ∉ outsideWords) (u : List Tok) : Leads (key x :: u) := by
  refine ⟨fun y hy => ?_, rfl⟩
  show Nat.beq x y = false
  exact beq_ne fun e => hx (e ▸ hy)

theorem Leads.append {t : Tok} {u v : List Tok} (h : Leads (t :: u)) : Leads (t :: u ++ v) := h

/-- How the lines of a part begin. -/
def FirstOf : Part → List Line → Prop
  | .statements ind, ls => ls = [] ∨ ∃ u ls', ls = (ind, u) :: ls' ∧ Leads u
  | .suite ind, ls => ∃ i u ls', ls = (i, u) :: ls' ∧ ind < i
  | .orElse ind, ls => ls = [] ∨ ∃ u ls', ls = (ind, u) :: ls'

theorem statements_first {ind : Nat} {st : St} {ls : List Line} (h : Block (.statements ind) st ls) : FirstOf (.statements ind) ls := by
  cases h with
  | nil => exact .inl rfl
  | simple h _ => exact .inr ⟨_, _, rfl, fun x hx => simple_no h (outside_statement x hx).1 (outside_statement x hx).2, simple_no_at h⟩
  | ret _ => exact .inr ⟨_, _, rfl, leads_key (by decide) _⟩
  | retTuple _ _ => exact .inr ⟨_, _, rfl, leads_key (by decide) _⟩
  | raise _ => exact .inr ⟨_, _, rfl, leads_key (by decide) _⟩
  | ite _ _ _ _ => exact .inr ⟨_, _, rfl, leads_key (by decide) _⟩
  | forIn _ _ _ _ => exact .inr ⟨_, _, rfl, leads_key (by decide) _⟩

theorem suite_first {ind : Nat} {st : St} {ls : List Line} (h : Block (.suite ind) st ls) : FirstOf (.suite ind) ls := by
  cases h with
  | suite hi hne h =>
    rename_i i
    rcases statements_first h with rfl | ⟨u, ls', rfl, _⟩
    · exact absurd rfl hne
    · exact ⟨i, u, ls', rfl, hi⟩

theorem orElse_first {ind : Nat} {st : St} {ls : List Line} (h : Block (.orElse ind) st ls) : FirstOf (.orElse ind) ls := by
  cases h with
  | noElse => exact .inl rfl
  | else_ _ => exact .inr ⟨_, _, rfl⟩
  | elif _ _ _ => exact .inr ⟨_, _, rfl⟩

/-- What may follow a part. -/
def Follows : Part → List Line → Prop
  | .statements ind, rest => blockEnds ind rest = true
  | .suite ind, rest => blockEnds (ind + 1) rest = true
  | .orElse ind, rest => blockEnds (ind + 1) rest = true ∧ ∀ u ls, rest = (ind, u) :: ls → nextName n!"else" u = false ∧ nextName n!"elif" u = false

/-- What the parser is to do for a part. -/
def workOf : Part → Work
  | .statements ind => .block ind
  | .suite ind => .deeper ind
  | .orElse ind => .orElse ind

theorem ble_self (i : Nat) : Nat.ble (i + 1) i = false := by
  cases e : Nat.ble (i + 1) i
  · rfl
  · exact absurd (Nat.le_of_ble_eq_true e) (by omega)

theorem ends_at (ind : Nat) (u : List Tok) (ls : List Line) : blockEnds (ind + 1) ((ind, u) :: ls) = true :=
  Nat.ble_eq_true_of_le (Nat.le_refl _)

theorem ends_more {ind : Nat} {ls : List Line} (h : blockEnds ind ls = true) : blockEnds (ind + 1) ls = true := by
  cases ls with
  | nil => rfl
  | cons l ls => exact Nat.ble_eq_true_of_le (Nat.le_succ_of_le (Nat.le_of_ble_eq_true h))

theorem block_ends {n ind : Nat} {rest : List Line} (h : blockEnds ind rest = true) : block (n + 1) (.block ind) rest = some (.done, rest) := by
  cases rest with
  | nil => rfl
  | cons l ls =>
    obtain ⟨i, u⟩ := l
    have h' : Nat.ble (i + 1) ind = true := h
    simp only [block, h', cond_true]

theorem block_at (n ind : Nat) (ts : List Tok) (ls' : List Line) : block (n + 1) (.block ind) ((ind, ts) :: ls') =
    (cond (nextName n!"return" ts) (cond (blockEnds ind ls') (returned n ts.tail fun e => some (.ret e, ls')) none)
              (cond (nextName n!"raise" ts) (cond (blockEnds ind ls') (wholeExpr n ts.tail fun e => some (.raise e, ls')) none)
                (cond (nextName n!"if" ts)
                  (headExpr n ts.tail fun c => thenSt (block n (.deeper ind) ls') fun a ls => thenSt (block n (.orElse ind) ls) fun b ls =>
                    thenSt (block n (.block ind) ls) fun rest ls => some (.ite c a b rest, ls))
                  (cond (nextName n!"for" ts)
                    (identifier ts.tail fun x ts => expectName n!"in" ts fun ts => headExpr n ts fun it => thenSt (block n (.deeper ind) ls') fun body ls =>
                      thenSt (block n (.block ind) ls) fun rest ls => some (.forIn x it body rest, ls))
                    (simple n ts fun st => thenSt (block n (.block ind) ls') fun rest ls => some (st rest, ls)))))) := by
  simp only [block, ble_self, Nat.beq_refl, cond_false, cond_true]

theorem follows_orElse {ind : Nat} {st : St} {lr rest : List Line} (h : Block (.statements ind) st lr) (hr : blockEnds ind rest = true) :
    Follows (.orElse ind) (lr ++ rest) := by
  rcases statements_first h with rfl | ⟨u, ls', rfl, hl⟩
  · refine ⟨ends_more hr, fun u ls e => ?_⟩
    rw [List.nil_append] at e
    subst e
    exact absurd (Nat.le_of_ble_eq_true hr) (by omega)
  · refine ⟨ends_at _ _ _, fun v ls e => ?_⟩
    cases e
    exact ⟨hl.1 _ (by decide), hl.1 _ (by decide)⟩

theorem follows_suite {ind : Nat} {st : St} {lb rest : List Line} (h : Block (.orElse ind) st lb) (hr : blockEnds (ind + 1) rest = true) :
    Follows (.suite ind) (lb ++ rest) := by
  rcases orElse_first h with rfl | ⟨u, ls', rfl⟩
  · exact hr
  · exact ends_at _ _ _

theorem simple_words : n!"return" ∈ statementWords ∧ n!"raise" ∈ statementWords ∧ n!"if" ∈ statementWords ∧ n!"for" ∈ statementWords := by decide

theorem ends_not_deeper {ind i : Nat} {u : List Tok} {ls : List Line} (h : blockEnds (ind + 1) ((i, u) :: ls) = true) : i ≤ ind :=
  Nat.le_of_succ_le_succ (Nat.le_of_ble_eq_true h)

theorem block_complete {p : Part} {st : St} {ls : List Line} (h : Block p st ls) :
    Ev fun n => ∀ rest, Follows p rest → block n (workOf p) (ls ++ rest) = some (st, rest) := by
  induction h with
  | nil => exact (Ev.always (P := fun _ => True) fun _ => trivial).succ fun n _ rest hr => block_ends hr
  | simple h hb ih =>
    rename_i f u ind rest ls
    refine ((simple_complete (α := St × List Line) h).and ih).succ fun n ⟨h1, h2⟩ rs hr => ?_
    obtain ⟨w1, w2, w3, w4⟩ := simple_words
    show block (n + 1) (.block ind) ((ind, u) :: (ls ++ rs)) = _
    rw [block_at, simple_no h w1 (by decide), simple_no h w2 (by decide), simple_no h w3 (by decide), simple_no h w4 (by decide)]
    simp only [cond_false]
    rw [h1, show block n (.block ind) (ls ++ rs) = _ from h2 rs hr]
    rfl
  | ret h =>
    rename_i e u ind
    refine (returnedEv (α := St × List Line) h).succ fun n h1 rs hr => ?_
    show block (n + 1) (.block ind) ((ind, _) :: rs) = _
    rw [block_at, nextName_key, cond_true, show blockEnds ind rs = true from hr, cond_true, List.tail_cons, h1]
  | retTuple h h' =>
    rename_i e u es v ind
    refine (returnedTupleEv (α := St × List Line) h h').succ fun n h1 rs hr => ?_
    show block (n + 1) (.block ind) ((ind, key n!"return" :: (u ++ sym n!"," :: v)) :: rs) = _
    rw [block_at, nextName_key, cond_true, show blockEnds ind rs = true from hr, cond_true, List.tail_cons, h1]
  | raise h =>
    rename_i e u ind
    refine (wholeEv (α := St × List Line) h).succ fun n h1 rs hr => ?_
    show block (n + 1) (.block ind) ((ind, _) :: rs) = _
    rw [block_at, show nextName n!"return" (key n!"raise" :: u) = false from rfl, cond_false, nextName_key, cond_true,
      show blockEnds ind rs = true from hr, cond_true, List.tail_cons, h1]
  | ite hc ha hb hl iha ihb ihl =>
    rename_i c u ind a la b lb rest lr
    refine (((headEv (α := St × List Line) hc).and iha).and (ihb.and ihl)).succ fun n ⟨⟨h1, h2⟩, h3, h4⟩ rs hr => ?_
    have f1 := follows_orElse hl hr
    have f2 := follows_suite hb f1.1
    show block (n + 1) (.block ind) ((ind, key n!"if" :: (u ++ [sym n!":"])) :: (la ++ lb ++ lr ++ rs)) = _
    rw [block_at, show nextName n!"return" (key n!"if" :: (u ++ [sym n!":"])) = false from rfl, cond_false,
      show nextName n!"raise" (key n!"if" :: (u ++ [sym n!":"])) = false from rfl, cond_false, nextName_key, cond_true, List.tail_cons, h1,
      show la ++ lb ++ lr ++ rs = la ++ (lb ++ (lr ++ rs)) by simp only [List.append_assoc], show block n (.deeper ind) _ = _ from h2 _ f2]
    show thenSt (block n (.orElse ind) (lb ++ (lr ++ rs))) _ = _
    rw [show block n (.orElse ind) _ = _ from h3 _ f1]
    show thenSt (block n (.block ind) (lr ++ rs)) _ = _
    rw [show block n (.block ind) _ = _ from h4 _ hr]
    rfl
  | forIn hx hi hb hl ihb ihl =>
    rename_i x it u ind body lb rest lr
    refine ((headEv (α := St × List Line) hi).and (ihb.and ihl)).succ fun n ⟨h1, h3, h4⟩ rs hr => ?_
    have f1 := follows_orElse hl hr
    show block (n + 1) (.block ind) ((ind, key n!"for" :: .name x :: key n!"in" :: (u ++ [sym n!":"])) :: (lb ++ lr ++ rs)) = _
    rw [block_at, show nextName n!"return" (key n!"for" :: .name x :: key n!"in" :: (u ++ [sym n!":"])) = false from rfl, cond_false,
      show nextName n!"raise" (key n!"for" :: .name x :: key n!"in" :: (u ++ [sym n!":"])) = false from rfl, cond_false,
      show nextName n!"if" (key n!"for" :: .name x :: key n!"in" :: (u ++ [sym n!":"])) = false from rfl, cond_false,
      nextName_key, cond_true, List.tail_cons, identifier_name hx, expectName_key, h1, List.append_assoc,
      show block n (.deeper ind) _ = _ from h3 _ f1.1]
    show thenSt (block n (.block ind) (lr ++ rs)) _ = _
    rw [show block n (.block ind) _ = _ from h4 _ hr]
    rfl
  | suite hi hne h ih =>
    rename_i ind i st ls
    refine ih.succ fun n h1 rs hr => ?_
    have hf : blockEnds i rs = true := by
      cases rs with
      | nil => rfl
      | cons l rs =>
        obtain ⟨j, v⟩ := l
        have := ends_not_deeper hr
        exact Nat.ble_eq_true_of_le (by omega)
    have h2 := h1 rs hf
    rcases statements_first h with rfl | ⟨u, ls', rfl, _⟩
    · exact absurd rfl hne
    · have hb : Nat.ble i ind = false := by
        cases e : Nat.ble i ind
        · rfl
        · exact absurd (Nat.le_of_ble_eq_true e) (by omega)
      show cond (Nat.ble i ind) none (block n (.block i) ((i, u) :: (ls' ++ rs))) = _
      rw [hb]
      exact h2
  | noElse =>
    rename_i ind
    refine (Ev.always (P := fun _ => True) fun _ => trivial).succ fun n _ rs hr => ?_
    show block (n + 1) (.orElse ind) rs = _
    cases rs with
    | nil => rfl
    | cons l rs =>
      obtain ⟨i, u⟩ := l
      simp only [block]
      cases e : Nat.beq i ind
      · rfl
      · have := Nat.eq_of_beq_eq_true e
        subst this
        obtain ⟨h1, h2⟩ := hr.2 u rs rfl
        rw [h1, h2]
        rfl
  | else_ h ih =>
    rename_i ind b ls
    refine ih.succ fun n h1 rs hr => ?_
    show block (n + 1) (.orElse ind) ((ind, [key n!"else", sym n!":"]) :: (ls ++ rs)) = _
    simp only [block, Nat.beq_refl, Bool.true_and, nextName_key, cond_true]
    exact h1 rs hr.1
  | elif hc ha hb iha ihb =>
    rename_i c u ind a la b lb
    refine ((headEv (α := St × List Line) hc).and (iha.and ihb)).succ fun n ⟨h1, h2, h3⟩ rs hr => ?_
    have f2 := follows_suite hb hr.1
    show block (n + 1) (.orElse ind) ((ind, key n!"elif" :: (u ++ [sym n!":"])) :: (la ++ lb ++ rs)) = _
    simp only [block, Nat.beq_refl, Bool.true_and, nextName_key, cond_true,
      show nextName n!"else" (key n!"elif" :: (u ++ [sym n!":"])) = false from rfl, cond_false, List.tail_cons]
    rw [h1, List.append_assoc, show block n (.deeper ind) _ = _ from h2 _ f2]
    show thenSt (block n (.orElse ind) (lb ++ rs)) _ = _
    rw [show block n (.orElse ind) _ = _ from h3 _ hr]
    rfl

theorem follows_nil (p : Part) : Follows p [] := by
  cases p with
  | statements _ => rfl
  | suite _ => rfl
  | orElse _ => exact ⟨rfl, fun _ _ h => by cases h⟩

/-! ## functions -/

theorem parameterEnds_cases {c : Nat} (h : parameterEnds c = true) : c = n!"," ∨ c = n!"=" ∨ c = n!")" := by
  simp only [parameterEnds, Bool.or_eq_true] at h
  rcases h with (h | h) | h
  · exact .inl (Nat.eq_of_beq_eq_true h)
  · exact .inr (.inl (Nat.eq_of_beq_eq_true h))
  · exact .inr (.inr (Nat.eq_of_beq_eq_true h))

theorem parameterType_complete {u : List Tok} (h : ParameterType u) {c : Nat} {r : List Tok} (hc : parameterEnds c = true) :
    cond (nextIs n!":" (u ++ sym c :: r)) (skipAnnotation (fun c => Nat.beq c n!"," || Nat.beq c n!"=" || Nat.beq c n!")") (u ++ sym c :: r).tail)
      (u ++ sym c :: r) = sym c :: r := by
  cases h with
  | none => rcases parameterEnds_cases hc with rfl | rfl | rfl <;> rfl
  | some ha hne =>
    refine skipAnnotation_complete (stop := parameterEnds) ha hne (.inr ⟨c, r, rfl, ?_, ?_⟩) rfl rfl
    · rw [hc]; rfl
    · rcases parameterEnds_cases hc with rfl | rfl | rfl <;> rfl

theorem resultType_complete {v : List Tok} (h : ResultType v) :
    cond (nextIs n!"->" (v ++ [sym n!":"])) (skipAnnotation (Nat.beq n!":") (v ++ [sym n!":"]).tail) (v ++ [sym n!":"]) = [sym n!":"] := by
  cases h with
  | none => rfl
  | some ha hne => exact skipAnnotation_complete ha hne (.inr ⟨_, _, rfl, rfl, rfl⟩) rfl rfl

theorem defaultValue_complete {d : Ex} {v : List Tok} (h : DefaultValue d v) {rest : List Tok} (hr : Stops5 rest) (he : nextIs n!"=" rest = false) :
    Ev fun n => cond (nextIs n!"=" (v ++ rest)) (parse n .expr (v ++ rest).tail) (some (.argNil, v ++ rest)) = some (d, rest) := by
  cases h with
  | none => exact Ev.always fun n => by rw [List.nil_append, he]; rfl
  | some h => exact (exprEv h hr).mono fun n hp => hp

/-- A parameter: what follows it begins with this. -/
theorem defaultValue_head {d : Ex} {v : List Tok} (h : DefaultValue d v) {c : Nat} (r : List Tok) (hc : parameterEnds c = true) :
    ∃ c' r', v ++ sym c :: r = sym c' :: r' ∧ parameterEnds c' = true := by
  cases h with
  | none => exact ⟨c, r, rfl, hc⟩
  | some _ => exact ⟨_, _, rfl, rfl⟩

theorem params_step {n c : Nat} {x : Name} {u v r : List Tok} {d : Ex} (hx : Identifier x) (hu : ParameterType u) (hv : DefaultValue d v)
    (hc : parameterEnds c = true)
    (hp : cond (nextIs n!"=" (v ++ sym c :: r)) (parse n .expr (v ++ sym c :: r).tail) (some (.argNil, v ++ sym c :: r)) = some (d, sym c :: r)) :
    params (n + 1) (.name x :: (u ++ (v ++ sym c :: r))) = cond (Nat.beq c n!",")
      (match params n r with
      | none => none
      | some (ps, ts) => some ((x, d) :: ps, ts))
      (expect n!")" (sym c :: r) fun ts => some ([(x, d)], ts)) := by
  obtain ⟨c', r', e, hc'⟩ := defaultValue_head hv r hc
  have ht := parameterType_complete hu (r := r') hc'
  rw [← e] at ht
  show cond false _ (identifier (.name x :: (u ++ (v ++ sym c :: r))) _) = _
  rw [cond_false, identifier_name hx]
  simp only [ht, hp]
  rfl

theorem params_complete {ps : List (Name × Ex)} {u : List Tok} (h : Parameters ps u) (rest : List Tok) :
    Ev fun n => params n (u ++ sym n!")" :: rest) = some (ps, rest) := by
  induction h with
  | nil => exact (Ev.always (P := fun _ => True) fun _ => trivial).succ fun n _ => rfl
  | last hx hu hv =>
    rename_i x u d v
    refine (defaultValue_complete hv (rest := sym n!")" :: rest) (by stops) rfl).succ fun n hp => ?_
    have := params_step hx hu hv (c := n!")") rfl hp
    rw [show Tok.name x :: u ++ v ++ sym n!")" :: rest = .name x :: (u ++ (v ++ sym n!")" :: rest)) by simp only [List.append_assoc, List.cons_append], this]
    exact expect_sym n!")" rest fun ts => some ([(x, d)], ts)
  | cons hx hu hv _ ih =>
    rename_i x u d v ps w _
    refine ((defaultValue_complete hv (rest := sym n!"," :: (w ++ sym n!")" :: rest)) (by stops) rfl).and ih).succ fun n ⟨hp, hi⟩ => ?_
    have := params_step hx hu hv (c := n!",") rfl hp
    rw [show Tok.name x :: u ++ v ++ sym n!"," :: w ++ sym n!")" :: rest = .name x :: (u ++ (v ++ sym n!"," :: (w ++ sym n!")" :: rest))) by
      simp only [List.append_assoc, List.cons_append], this, hi]
    rfl

theorem function_complete {ind : Nat} {f : Fun} {u : List Tok} {lf : List Line} (h : FunctionDef ind f u lf) :
    Ev fun n => ∀ rest, blockEnds (ind + 1) rest = true → function n f.kind ind u (lf ++ rest) = some (f, rest) := by
  cases h with
  | mk hx hp hv hb =>
    rename_i x ps u v body kind
    refine ((params_complete hp (v ++ [sym n!":"])).and (block_complete hb)).mono fun n ⟨h1, h2⟩ rs hr => ?_
    rw [show Tok.name x :: sym n!"(" :: u ++ sym n!")" :: v ++ [sym n!":"] = .name x :: sym n!"(" :: (u ++ sym n!")" :: (v ++ [sym n!":"])) by
      simp only [List.append_assoc, List.cons_append]]
    rw [function, identifier_name hx, expect_sym]
    simp only [h1, resultType_complete hv]
    show thenSt (block n (.deeper ind) (lf ++ rs)) _ = _
    rw [show block n (.deeper ind) _ = _ from h2 rs hr]
    rfl

theorem kindOf_complete {kind : Kind} {d : List Tok} (h : Decorator kind d) : nextIs n!"@" d = true ∧ kindOf d.tail = some kind := by
  cases h <;> exact ⟨rfl, rfl⟩

/-! ## classes -/

theorem classBody_ends {ind : Nat} {ms : Members} {ls : List Line} (h : ClassBody ind ms ls) {rest : List Line} (hr : blockEnds ind rest = true) :
    blockEnds (ind + 1) (ls ++ rest) = true := by
  cases h with
  | nil => exact ends_more hr
  | _ => exact ends_at _ _ _

theorem def_keyword : n!"def" ∈ keywords := by decide

theorem members_complete {ind : Nat} {ms : Members} {ls : List Line} (h : ClassBody ind ms ls) :
    Ev fun n => ∀ rest, blockEnds ind rest = true → members n ind (ls ++ rest) = some (ms, rest) := by
  induction h with
  | nil =>
    refine (Ev.always (P := fun _ => True) fun _ => trivial).succ fun n _ rs hr => ?_
    cases rs with
    | nil => rfl
    | cons l rs =>
      obtain ⟨i, u⟩ := l
      have h' : Nat.ble (i + 1) ind = true := hr
      show members (n + 1) ind ((i, u) :: rs) = _
      simp only [members, h', cond_true]
  | field hx ha hne _ ih =>
    rename_i x u fs vs ms ls _
    refine ih.succ fun n hi rs hr => ?_
    have hs := skipAnnotation_complete ha hne (.inl rfl) rfl rfl
    rw [List.append_nil] at hs
    show members (n + 1) ind ((ind, .name x :: sym n!":" :: u) :: (ls ++ rs)) = _
    simp only [members, ble_self, Nat.beq_refl, cond_false, cond_true, show nextIs n!"@" (.name x :: sym n!":" :: u) = false from rfl,
      show nextName n!"def" (.name x :: sym n!":" :: u) = false from identifier_ne hx def_keyword, identifier_name hx, nextIs_sym, List.tail_cons, hs]
    rw [hi rs hr]
    rfl
  | fieldDefault hx ha hne hd _ ih =>
    rename_i x u d v fs vs ms ls _
    refine ((wholeEv (α := Members × List Line) hd).and ih).succ fun n ⟨hw, hi⟩ rs hr => ?_
    have hs := skipAnnotation_complete ha hne (rest := sym n!"=" :: v) (.inr ⟨_, _, rfl, rfl, rfl⟩) rfl rfl
    show members (n + 1) ind ((ind, .name x :: sym n!":" :: (u ++ sym n!"=" :: v)) :: (ls ++ rs)) = _
    simp only [members, ble_self, Nat.beq_refl, cond_false, cond_true, show nextIs n!"@" (.name x :: sym n!":" :: (u ++ sym n!"=" :: v)) = false from rfl,
      show nextName n!"def" (.name x :: sym n!":" :: (u ++ sym n!"=" :: v)) = false from identifier_ne hx def_keyword, identifier_name hx, nextIs_sym,
      List.tail_cons, hs, expect_sym, hw]
    rw [hi rs hr]
    rfl
  | var hx hd _ ih =>
    rename_i x d v fs vs ms ls _
    refine ((wholeEv (α := Members × List Line) hd).and ih).succ fun n ⟨hw, hi⟩ rs hr => ?_
    show members (n + 1) ind ((ind, .name x :: sym n!"=" :: v) :: (ls ++ rs)) = _
    simp only [members, ble_self, Nat.beq_refl, cond_false, cond_true, show nextIs n!"@" (.name x :: sym n!"=" :: v) = false from rfl,
      show nextName n!"def" (.name x :: sym n!"=" :: v) = false from identifier_ne hx def_keyword, identifier_name hx,
      show nextIs n!":" (sym n!"=" :: v) = false from rfl, expect_sym, hw]
    rw [hi rs hr]
    rfl
  | method hf hk hb ih =>
    rename_i f u lf fs vs ms ls
    refine ((function_complete hf).and ih).succ fun n ⟨h1, h2⟩ rs hr => ?_
    rw [hk] at h1
    have h3 := h1 (ls ++ rs) (classBody_ends hb hr)
    show members (n + 1) ind ((ind, key n!"def" :: u) :: (lf ++ ls ++ rs)) = _
    simp only [members, ble_self, Nat.beq_refl, cond_false, cond_true, show nextIs n!"@" (key n!"def" :: u) = false from rfl, nextName_key, List.tail_cons,
      List.append_assoc, h3]
    rw [h2 rs hr]
    rfl
  | decorated hd hf hb ih =>
    rename_i d f u lf fs vs ms ls
    refine ((function_complete hf).and ih).succ fun n ⟨h1, h2⟩ rs hr => ?_
    have h3 := h1 (ls ++ rs) (classBody_ends hb hr)
    obtain ⟨k1, k2⟩ := kindOf_complete hd
    show members (n + 1) ind ((ind, d) :: (ind, key n!"def" :: u) :: (lf ++ ls ++ rs)) = _
    simp only [members, ble_self, Nat.beq_refl, cond_false, cond_true, k1, k2, Bool.true_and, nextName_key, List.tail_cons, List.append_assoc, h3]
    rw [h2 rs hr]
    rfl

theorem classBody_first {ind : Nat} {ms : Members} {ls : List Line} (h : ClassBody ind ms ls) (hne : ls ≠ []) : ∃ u ls', ls = (ind, u) :: ls' := by
  cases h with
  | nil => exact absurd rfl hne
  | _ => exact ⟨_, _, rfl⟩

theorem base_complete {b : Name} {u : List Tok} (h : BaseClass b u) (rest : List Tok) :
    cond (nextIs n!"(" (u ++ sym n!":" :: rest)) (identifier (u ++ sym n!":" :: rest).tail fun b ts => expect n!")" ts fun ts => some (b, ts))
      (some (n!"object", u ++ sym n!":" :: rest)) = some (b, sym n!":" :: rest) := by
  cases h with
  | object => rfl
  | named hb =>
    exact (identifier_name hb (sym n!")" :: sym n!":" :: rest) fun b ts => expect n!")" ts fun ts => some (b, ts)).trans (expect_sym _ _ _)

theorem classDef_complete {m : Name} {dataclass : Bool} {c : Cls} {u : List Tok} {lc : List Line} (h : ClassDef m dataclass c u lc) :
    Ev fun n => ∀ rest, blockEnds 1 rest = true → classDef n m dataclass u (lc ++ rest) = some (c, rest) := by
  cases h with
  | mk hc hu hi hne hb =>
    rename_i c b u ind ms
    refine (members_complete hb).mono fun n h1 rs hr => ?_
    obtain ⟨i, rfl⟩ : ∃ i, ind = i + 1 := ⟨ind - 1, by omega⟩
    have hf : blockEnds (i + 1) rs = true := by
      cases rs with
      | nil => rfl
      | cons l rs =>
        obtain ⟨j, v⟩ := l
        have := ends_not_deeper (ind := 0) hr
        exact Nat.ble_eq_true_of_le (by omega)
    have h2 := h1 rs hf
    obtain ⟨v, ls', rfl⟩ := classBody_first hb hne
    show classDef n m dataclass (.name c :: (u ++ [sym n!":"])) ((i + 1, v) :: (ls' ++ rs)) = _
    rw [List.cons_append] at h2
    rw [classDef, identifier_name hc]
    simp only [base_complete hu, h2]
    rfl

/-! ## modules -/

theorem names_complete {xs : List Name} {u : List Tok} (h : Names xs u) : names u = some xs := by
  induction h with
  | one hx =>
    simp only [names]
    rw [isKeyword_false.2 hx]
    rfl
  | more hx _ ih =>
    simp only [names]
    rw [isKeyword_false.2 hx, ih]
    rfl

theorem module_first {m : Name} {program : Bool} {p : Parsed} {ls : List Line} (h : ModuleText m program p ls) : blockEnds 1 ls = true := by
  cases h with
  | nil => rfl
  | statements h _ =>
    rcases statements_first h with rfl | ⟨u, ls', rfl, _⟩
    · rfl
    · exact ends_at 0 _ _
  | _ => exact ends_at 0 _ _

theorem not_assigns {u : List Tok} (h : ∀ x v, u ≠ .name x :: sym n!"=" :: v) : assigns u = false := by
  unfold assigns
  split
  · rename_i x c v
    cases e : Nat.beq c n!"="
    · rfl
    · exact absurd (by rw [Nat.eq_of_beq_eq_true e]) (h x v)
  · rfl

theorem module_words : n!"import" ∈ keywords ∧ n!"from" ∈ keywords ∧ n!"class" ∈ keywords ∧ n!"def" ∈ keywords := by decide

/-- A module by the grammar is read, with enough room. -/
theorem moduleItems_complete {m : Name} {program : Bool} {p : Parsed} {ls : List Line} (h : ModuleText m program p ls) :
    Ev fun n => moduleItems n m program ls = some p := by
  induction h with
  | nil => exact (Ev.always (P := fun _ => True) fun _ => trivial).succ fun n _ => rfl
  | import_ hn _ ih =>
    refine ih.succ fun n hi => ?_
    simp only [moduleItems, nextName_key, cond_true, List.tail_cons, names_complete hn, hi]
    rfl
  | fromPackage hn _ ih =>
    refine ih.succ fun n hi => ?_
    simp only [moduleItems, show ∀ v, nextName n!"import" (key n!"from" :: v) = false from fun _ => rfl, cond_false, nextName_key, cond_true, List.tail_cons,
      Nat.beq_refl, Bool.and_self, expectName_key, names_complete hn, hi]
    rfl
  | fromLibrary hn _ ih =>
    refine ih.succ fun n hi => ?_
    simp only [moduleItems, show ∀ v, nextName n!"import" (key n!"from" :: v) = false from fun _ => rfl, cond_false, nextName_key, cond_true, List.tail_cons]
    show expectName n!"import" (key n!"import" :: _) _ = _
    rw [expectName_key]
    simp only [names_complete hn, hi]
    rfl
  | constant hp hx he _ ih =>
    rename_i x e u gs cs fs st ls _
    subst hp
    obtain ⟨w1, w2, w3, w4⟩ := module_words
    refine ((wholeEv (α := Name × Ex) he).and ih).succ fun n ⟨hw, hi⟩ => ?_
    have hk : ∀ y ∈ keywords, nextName y (.name x :: sym n!"=" :: u) = false := fun y hy => identifier_ne hx hy
    have hc : constant n (.name x :: sym n!"=" :: u) = some (x, e) := by rw [constant, identifier_name hx, expect_sym, hw]
    simp only [moduleItems, hk _ w1, hk _ w2, hk _ w3, hk _ w4, cond_false, show nextIs n!"@" (.name x :: sym n!"=" :: u) = false from rfl, Bool.not_false,
      Bool.true_and, show assigns (.name x :: sym n!"=" :: u) = true from rfl, cond_true, hc, hi]
    rfl
  | class_ hc hm ih =>
    rename_i c u lc gs cs fs st ls
    refine ((classDef_complete hc).and ih).succ fun n ⟨h1, hi⟩ => ?_
    show moduleItems (n + 1) m program ((0, key n!"class" :: u) :: (lc ++ ls)) = _
    simp only [moduleItems, show nextName n!"import" (key n!"class" :: u) = false from rfl, show nextName n!"from" (key n!"class" :: u) = false from rfl,
      show nextIs n!"@" (key n!"class" :: u) = false from rfl, cond_false, nextName_key, cond_true, List.tail_cons, h1 ls (module_first hm), hi]
    rfl
  | dataclass hv hc hm ih =>
    rename_i v c u lc gs cs fs st ls
    refine ((wholeEv (α := Parsed) hv).and ((classDef_complete hc).and ih)).succ fun n ⟨hw, h1, hi⟩ => ?_
    show moduleItems (n + 1) m program ((0, sym n!"@" :: v) :: (0, key n!"class" :: u) :: (lc ++ ls)) = _
    simp only [moduleItems, show nextName n!"import" (sym n!"@" :: v) = false from rfl, show nextName n!"from" (sym n!"@" :: v) = false from rfl,
      nextIs_sym, cond_false, cond_true, List.tail_cons, hw, Nat.beq_refl, Bool.and_self, nextName_key, h1 ls (module_first hm), hi]
    rfl
  | function hf hk hm ih =>
    rename_i f u lf gs cs fs st ls
    refine ((function_complete hf).and ih).succ fun n ⟨h1, hi⟩ => ?_
    rw [hk] at h1
    show moduleItems (n + 1) m program ((0, key n!"def" :: u) :: (lf ++ ls)) = _
    simp only [moduleItems, show nextName n!"import" (key n!"def" :: u) = false from rfl, show nextName n!"from" (key n!"def" :: u) = false from rfl,
      show nextIs n!"@" (key n!"def" :: u) = false from rfl, show nextName n!"class" (key n!"def" :: u) = false from rfl, cond_false, nextName_key, cond_true,
      List.tail_cons, h1 ls (module_first hm), hi]
    rfl
  | statements h hn =>
    rename_i st ls
    refine (block_complete h).succ fun n h1 => ?_
    have h2 := h1 [] (follows_nil _)
    rw [List.append_nil] at h2
    rcases statements_first h with rfl | ⟨u, ls', rfl, hl, ha⟩
    · cases h
      rfl
    · have hs : (!program && assigns u) = false := by
        cases program with
        | true => rfl
        | false => exact not_assigns fun x v e => hn rfl x v ls' (by rw [e])
      simp only [moduleItems, hl n!"import" (by decide), hl n!"from" (by decide), hl n!"class" (by decide), hl n!"def" (by decide), ha, cond_false, hs,
        show block n (.block 0) ((0, u) :: ls') = _ from h2]

end Genie.Src.Text
