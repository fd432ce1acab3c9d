import Verif.Proof.Source.Lexer
/-!
# Logical lines (for C73)
-/

namespace Genie.Src.Text

/-! ## the characters of a line -/

theorem chars_zero (acc : List Nat) (fuel : Nat) : charsAux fuel 0 acc = acc := by
  cases fuel <;> rfl

theorem charsAux_code : ∀ (u : List Nat) (fuel : Nat) (acc : List Nat), u.length ≤ fuel → Proper u.reverse →
    charsAux fuel (code u.reverse) acc = u.reverse ++ acc := by
  intro u
  induction u with
  | nil => intro fuel acc _ _; exact chars_zero acc fuel
  | cons c u ih =>
    intro fuel acc hl hp
    cases fuel with
    | zero => cases hl
    | succ fuel =>
      rw [List.reverse_cons] at hp ⊢
      have hc := hp.1 c (by simp)
      have hz : code (u.reverse ++ [c]) ≠ 0 := fun h => by
        have := code_zero hp h
        simp at this
      rw [charsAux.eq_def]
      simp only
      split
      · rename_i h; exact absurd h hz
      · rename_i n h
        rw [show n + 1 = n.succ from rfl, ← h, code_snoc]
        have h1 : (code u.reverse * 256 + c) / 256 = code u.reverse := by omega
        have h2 : (code u.reverse * 256 + c) % 256 = c := by omega
        rw [h1, h2, ih fuel (c :: acc) (Nat.le_of_succ_le_succ hl) hp.init, List.append_assoc]
        rfl

/-- The characters of a line of at most 500 of them. -/
theorem chars_code {u : List Nat} (hp : Proper u) (hl : u.length ≤ 500) : chars (code u) = u := by
  have := charsAux_code u.reverse 500 [] (by rwa [List.length_reverse]) (by rwa [List.reverse_reverse])
  rwa [List.reverse_reverse, List.append_nil] at this

/-! ## brackets and backslashes -/

theorem brackets_op (c : Nat) (ts : List Tok) (s : List Nat) : brackets (.op c :: ts) s =
    cond (Nat.beq c 40) (brackets ts (41 :: s)) (cond (Nat.beq c 91) (brackets ts (93 :: s))
      (cond (Nat.beq c 41 || Nat.beq c 93)
        (match s with
        | [] => none
        | d :: s => cond (Nat.beq c d) (brackets ts s) none)
        (brackets ts s))) := rfl

theorem brackets_nesting : ∀ (ts : List Tok) (s s' : List Nat), brackets ts s = some s' → Nesting (s.map Tok.op) ts (s'.map Tok.op) := by
  intro ts
  induction ts with
  | nil => intro s s' h; cases h; exact .nil
  | cons t ts ih =>
    intro s s' h
    cases t with
    | op c =>
      rw [brackets_op] at h
      cases h1 : Nat.beq c 40
      · rw [h1, cond_false] at h
        cases h2 : Nat.beq c 91
        · rw [h2, cond_false] at h
          cases h3 : (Nat.beq c 41 || Nat.beq c 93)
          · rw [h3, cond_false] at h
            refine .other ?_ (ih _ _ h)
            rw [Bool.or_eq_false_iff, nbeq_false, nbeq_false] at h3
            have h1 := nbeq_false.1 h1
            have h2 := nbeq_false.1 h2
            simp only [List.mem_cons, Tok.op.injEq, List.not_mem_nil, or_false]
            omega
          · rw [h3, cond_true] at h
            cases s with
            | nil => cases h
            | cons d s =>
              simp only at h
              cases h4 : Nat.beq c d
              · rw [h4] at h; cases h
              · rw [h4] at h
                cases nbeq.1 h4
                rw [Bool.or_eq_true, nbeq, nbeq] at h3
                refine .close ?_ (ih _ _ h)
                rcases h3 with rfl | rfl
                · exact .inl rfl
                · exact .inr rfl
        · rw [h2] at h
          cases nbeq.1 h2
          exact .square (ih _ _ h)
      · rw [h1] at h
        cases nbeq.1 h1
        exact .round (ih _ _ h)
    | _ => exact .other (by simp) (ih _ _ h)

theorem nesting_brackets (h : Nesting S ts S') : ∀ s : List Nat, S = s.map Tok.op → ∃ s', S' = s'.map Tok.op ∧ brackets ts s = some s' := by
  induction h with
  | nil => intro s hs; exact ⟨s, hs, rfl⟩
  | round _ ih =>
    intro s hs
    exact ih (41 :: s) (by rw [hs]; rfl)
  | square _ ih =>
    intro s hs
    exact ih (93 :: s) (by rw [hs]; rfl)
  | close ht _ ih =>
    intro s hs
    cases s with
    | nil => cases hs
    | cons c s =>
      rw [List.map_cons, List.cons.injEq] at hs
      obtain ⟨rfl, hs⟩ := hs
      obtain ⟨s', h1, h2⟩ := ih s hs
      refine ⟨s', h1, ?_⟩
      rw [Tok.op.injEq, Tok.op.injEq] at ht
      rcases ht with rfl | rfl <;> exact h2
  | other ht _ ih =>
    rename_i t _ _ _ _
    intro s hs
    obtain ⟨s', h1, h2⟩ := ih s hs
    refine ⟨s', h1, ?_⟩
    cases t with
    | op c =>
      simp only [List.mem_cons, Tok.op.injEq, List.not_mem_nil, or_false, not_or] at ht
      obtain ⟨h3, h4, h5, h6⟩ := ht
      rw [brackets_op, nbeq_false.2 h3, cond_false, nbeq_false.2 h4, cond_false, nbeq_false.2 h5, nbeq_false.2 h6]
      exact h2
    | _ => exact h2

theorem slashed_iff : ∀ ts, slashed ts = true ↔ ∃ us, ts = us ++ [Tok.op 92]
  | [] => by simp [slashed]
  | [t] => by
    cases t with
    | op c =>
      rw [slashed, nbeq]
      constructor
      · rintro rfl; exact ⟨[], rfl⟩
      · intro ⟨us, h⟩
        cases us with
        | nil => cases h; rfl
        | cons u us => simp at h
    | _ =>
      simp only [slashed, Bool.false_eq_true, false_iff]
      intro ⟨us, h⟩
      cases us with
      | nil => cases h
      | cons u us => simp at h
  | t :: t' :: ts => by
    have h1 : slashed (t :: t' :: ts) = slashed (t' :: ts) := by cases t <;> rfl
    rw [h1, slashed_iff (t' :: ts)]
    constructor
    · intro ⟨us, h⟩; exact ⟨t :: us, by rw [h]; rfl⟩
    · intro ⟨us, h⟩
      cases us with
      | nil => cases h
      | cons u us => exact ⟨us, by simpa using (List.cons.inj h).2⟩

theorem unslash_snoc : ∀ us, unslash (us ++ [Tok.op 92]) = us
  | [] => rfl
  | t :: us => by
    have h : unslash (t :: (us ++ [Tok.op 92])) = t :: unslash (us ++ [Tok.op 92]) := by
      cases us <;> cases t <;> rfl
    rw [List.cons_append, h, unslash_snoc us]

theorem unslash_same : ∀ ts, slashed ts = false → unslash ts = ts
  | [], _ => rfl
  | [t], h => by
    cases t with
    | op c =>
      rw [slashed] at h
      rw [unslash, h]; rfl
    | _ => rfl
  | t :: t' :: ts, h => by
    have h1 : slashed (t :: t' :: ts) = slashed (t' :: ts) := by cases t <;> rfl
    have h2 : unslash (t :: t' :: ts) = t :: unslash (t' :: ts) := by cases t <;> rfl
    rw [h2, unslash_same (t' :: ts) (h1 ▸ h)]

theorem not_slashed {ts : List Tok} : slashed ts = false ↔ ts.getLast? ≠ some (sym n!"\\") := by
  rw [← Bool.not_eq_true, slashed_iff]
  refine not_congr ⟨?_, ?_⟩
  · rintro ⟨us, rfl⟩
    exact List.getLast?_concat
  · intro h
    exact List.getLast?_eq_some_iff.1 h

theorem brackets_snoc : ∀ (us : List Tok) (s : List Nat), brackets (us ++ [Tok.op 92]) s = brackets us s
  | [], s => rfl
  | t :: us, s => by
    cases t with
    | op c =>
      rw [List.cons_append, brackets_op, brackets_op, brackets_snoc us, brackets_snoc us, brackets_snoc us]
      cases s with
      | nil => rfl
      | cons d s => simp only [brackets_snoc us]
    | _ => exact brackets_snoc us s

theorem indent_indented (l : List Nat) : Indented (indent l) l := by
  induction l with
  | nil => exact ⟨[], rfl, by simp⟩
  | cons c l ih =>
    rw [indent]
    cases h : Nat.beq c 32
    · exact ⟨c :: l, rfl, fun h' => nbeq_false.1 h (by simpa using h')⟩
    · cases nbeq.1 h
      obtain ⟨cs, h1, h2⟩ := ih
      refine ⟨cs, ?_, h2⟩
      rw [cond_true, List.replicate_succ, List.cons_append, ← h1]

theorem indented_indent : ∀ (n : Nat) (l : List Nat), Indented n l → indent l = n
  | 0, l, ⟨cs, h1, h2⟩ => by
    rw [List.replicate_zero, List.nil_append] at h1
    subst h1
    cases l with
    | nil => rfl
    | cons c l =>
      have : Nat.beq c 32 = false := nbeq_false.2 fun h => h2 (by rw [h]; rfl)
      rw [indent, this]; rfl
  | n + 1, l, ⟨cs, h1, h2⟩ => by
    rw [h1, List.replicate_succ, List.cons_append, indent]
    have := indented_indent n _ ⟨cs, rfl, h2⟩
    rw [this]; rfl

/-! ## lines -/

/-- No character sequence is refused in these lines. -/
def Clean (out : List Line) : Prop := ∀ p ∈ out, Tok.bad ∉ p.2

/-- A line that goes on. -/
theorem logical_some (l : Nat) (ls : List Nat) (i : Nat) (sofar : List Tok) (s : List Nat) : logical (l :: ls) (some (i, sofar, s)) =
    match brackets (lex .blank (chars l)) s, slashed (lex .blank (chars l)) with
    | none, _ => [(0, [.bad])]
    | some [], false => (i, sofar ++ lex .blank (chars l)) :: logical ls none
    | some s, _ => logical ls (some (i, sofar ++ unslash (lex .blank (chars l)), s)) := by
  rw [logical]
  rfl

/-- A line begins. -/
theorem logical_first {l : Nat} (h : lex .blank (chars l) ≠ []) (ls : List Nat) :
    logical (l :: ls) none = logical (l :: ls) (some (indent (chars l), [], [])) := by
  rw [logical_some, logical]
  cases hl : lex .blank (chars l) with
  | nil => exact absurd hl h
  | cons t ts =>
    simp only [List.nil_append]
    cases brackets (t :: ts) [] with
    | none => rfl
    | some s => cases s <;> cases slashed (t :: ts) <;> rfl

theorem clean_bad : ¬Clean [(0, [Tok.bad])] := fun h => h _ List.mem_cons_self List.mem_cons_self

theorem logical_sound : ∀ ls : List Nat,
    (Clean (logical ls none) → LogicalLines (ls.map chars) (logical ls none)) ∧
    ∀ i sofar s, Clean (logical ls (some (i, sofar, s))) → ∃ l1 rest ts out, ls.map chars = l1 ++ rest ∧ l1 ≠ [] ∧ Joined (s.map Tok.op) l1 ts ∧
      logical ls (some (i, sofar, s)) = (i, sofar ++ ts) :: out ∧ LogicalLines rest out := by
  intro ls
  induction ls with
  | nil => exact ⟨fun _ => .nil, fun i sofar s h => absurd h clean_bad⟩
  | cons l ls ih =>
    have hp : ∀ i sofar s, Clean (logical (l :: ls) (some (i, sofar, s))) → ∃ l1 rest ts out, ls.map chars = l1 ++ rest ∧
        Joined (s.map Tok.op) (chars l :: l1) ts ∧
        logical (l :: ls) (some (i, sofar, s)) = (i, sofar ++ ts) :: out ∧ LogicalLines rest out := by
      intro i sofar s h
      have he := logical_some l ls i sofar s
      cases hb : brackets (lex .blank (chars l)) s with
      | none =>
        rw [hb] at he
        rw [he] at h
        exact absurd h clean_bad
      | some s' =>
        rw [hb] at he
        cases hs : slashed (lex .blank (chars l)) with
        | false =>
          rw [hs] at he
          have hn : (lex .blank (chars l)).getLast? ≠ some (sym n!"\\") := not_slashed.1 hs
          cases s' with
          | nil =>
            simp only at he
            rw [he] at h
            have ht := lex_tokens (chars l) .blank [] rfl fun hb' => h _ List.mem_cons_self (List.mem_append_right _ hb')
            exact ⟨[], ls.map chars, _, _, rfl, .last ht hn (brackets_nesting _ _ _ hb), he, ih.1 fun p hp => h p (List.mem_cons_of_mem _ hp)⟩
          | cons d s' =>
            simp only [unslash_same _ hs] at he
            rw [he] at h
            obtain ⟨l1, rest, ts, out, h1, h2, h3, h4, h5⟩ := ih.2 _ _ _ h
            rw [h4] at h he
            have ht := lex_tokens (chars l) .blank [] rfl fun hb' =>
              h _ List.mem_cons_self (List.mem_append_left _ (List.mem_append_right _ hb'))
            rw [List.append_assoc] at he
            exact ⟨l1, rest, _, out, h1, .bracket ht hn (brackets_nesting _ _ _ hb) (by simp) h3, he, h5⟩
        | true =>
          rw [hs] at he
          have he' : logical (l :: ls) (some (i, sofar, s)) = logical ls (some (i, sofar ++ unslash (lex .blank (chars l)), s')) := by
            rw [he]; cases s' <;> rfl
          obtain ⟨us, hu⟩ := (slashed_iff _).1 hs
          rw [hu, unslash_snoc] at he'
          rw [he'] at h
          obtain ⟨l1, rest, ts, out, h1, h2, h3, h4, h5⟩ := ih.2 _ _ _ h
          rw [h4] at h he'
          have ht := lex_tokens (chars l) .blank [] rfl fun hb' => by
            rw [hu, List.mem_append, List.mem_singleton] at hb'
            rcases hb' with hb' | hb'
            · exact h _ List.mem_cons_self (List.mem_append_left _ (List.mem_append_right _ hb'))
            · cases hb'
          rw [List.nil_append, hu] at ht
          rw [hu, brackets_snoc] at hb
          rw [List.append_assoc] at he'
          exact ⟨l1, rest, _, out, h1, .backslash ht (brackets_nesting _ _ _ hb) h3, he', h5⟩
    refine ⟨fun h => ?_, fun i sofar s h => ?_⟩
    · cases hl : lex .blank (chars l) with
      | nil =>
        have ht := lex_tokens (chars l) .blank [] rfl (by rw [hl]; simp)
        rw [hl] at ht
        have he : logical (l :: ls) none = logical ls none := by rw [logical, hl]
        rw [he] at h ⊢
        exact .empty ht (ih.1 h)
      | cons t ts =>
        have hne : lex .blank (chars l) ≠ [] := by rw [hl]; simp
        rw [logical_first hne] at h ⊢
        obtain ⟨l1, rest, us, out, h1, h2, h3, h4⟩ := hp _ _ _ h
        rw [h3, List.map_cons, h1]
        exact .line (fun h0 => hne (tokens_lex h0)) h2 (indent_indented _) h4
    · obtain ⟨l1, rest, ts, out, h1, h2, h3, h4⟩ := hp i sofar s h
      exact ⟨chars l :: l1, rest, ts, out, by rw [List.map_cons, h1]; rfl, by simp, h2, h3, h4⟩

theorem joined_logical (h : Joined S L ts) : ∀ (ls rest : List Nat) (i : Nat) (sofar : List Tok) (s : List Nat), ls.map chars = L → S = s.map Tok.op →
    logical (ls ++ rest) (some (i, sofar, s)) = (i, sofar ++ ts) :: logical rest none := by
  induction h with
  | last ht hn hb =>
    intro ls rest i sofar s hl hs
    obtain ⟨l, rfl, rfl⟩ := List.map_eq_singleton_iff.1 hl
    obtain ⟨s', h1, h2⟩ := nesting_brackets hb s hs
    cases List.map_eq_nil_iff.1 h1.symm
    rw [List.singleton_append, logical_some, tokens_lex ht, h2, not_slashed.2 hn]
  | bracket ht hn hb hne hj ih =>
    intro ls rest i sofar s hl hs
    obtain ⟨l, ls, rfl, rfl, hl'⟩ := List.map_eq_cons_iff.1 hl
    obtain ⟨s', h1, h2⟩ := nesting_brackets hb s hs
    rw [List.cons_append, logical_some, tokens_lex ht, h2, not_slashed.2 hn]
    cases s' with
    | nil => exact absurd h1 hne
    | cons d s' =>
      simp only
      rw [unslash_same _ (not_slashed.2 hn), ih ls rest _ _ _ hl' h1, List.append_assoc]
  | backslash ht hb hj ih =>
    intro ls rest i sofar s hl hs
    obtain ⟨l, ls, rfl, rfl, hl'⟩ := List.map_eq_cons_iff.1 hl
    obtain ⟨s', h1, h2⟩ := nesting_brackets hb s hs
    rw [List.cons_append, logical_some, tokens_lex ht, brackets_snoc, h2, (slashed_iff _).2 ⟨_, rfl⟩, unslash_snoc]
    cases s' with
    | nil => simp only; rw [ih ls rest _ _ _ hl' h1, List.append_assoc]
    | cons d s' => simp only; rw [ih ls rest _ _ _ hl' h1, List.append_assoc]

theorem lines_logical (h : LogicalLines L out) : ∀ ls : List Nat, ls.map chars = L → logical ls none = out := by
  induction h with
  | nil =>
    intro ls h
    cases List.map_eq_nil_iff.1 h
    rfl
  | empty ht _ ih =>
    intro ls h
    obtain ⟨l, ls, rfl, rfl, hl⟩ := List.map_eq_cons_iff.1 h
    rw [logical, tokens_lex ht]
    exact ih ls hl
  | line hne hj hi _ ih =>
    intro ls h
    obtain ⟨l1, l2, rfl, h1, h2⟩ := List.map_eq_append_iff.1 h
    obtain ⟨l, l1, rfl, rfl, h1'⟩ := List.map_eq_cons_iff.1 h1
    have hlex : lex .blank (chars l) ≠ [] := fun h0 => hne (by
      have := lex_tokens (chars l) .blank [] rfl (by rw [h0]; simp)
      rwa [h0] at this)
    rw [List.cons_append, logical_first hlex, ← List.cons_append, joined_logical hj (l :: l1) l2 _ _ [] h1 rfl, ih l2 h2, indented_indent _ _ hi]
    rfl

theorem joined_clean (h : Joined S L ts) : Tok.bad ∉ ts := by
  induction h with
  | last ht => exact tokens_not_bad ht
  | bracket ht _ _ _ _ ih =>
    intro hb
    rcases List.mem_append.1 hb with hb | hb
    · exact tokens_not_bad ht hb
    · exact ih hb
  | backslash ht _ _ ih =>
    intro hb
    rcases List.mem_append.1 hb with hb | hb
    · exact tokens_not_bad ht (List.mem_append_left _ hb)
    · exact ih hb

theorem lines_clean (h : LogicalLines L out) : Clean out := by
  induction h with
  | nil => intro p hp; cases hp
  | empty _ _ ih => exact ih
  | line _ hj _ _ ih =>
    intro p hp
    rcases List.mem_cons.1 hp with rfl | hp
    · exact joined_clean hj
    · exact ih p hp

end Genie.Src.Text
