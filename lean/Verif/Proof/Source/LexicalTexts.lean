import Verif.Proof.Source.LogicalLines
/-!
# Texts and their characters (for C73)
-/

namespace Genie.Src.Text

theorem derives_clean (h : Derives p e u) : Tok.bad ∉ u := by
  induction h with
  | comparisons ho _ _ _ _ => cases ho <;> simp_all
  | _ => simp_all

theorem names_clean (h : Names xs u) : Tok.bad ∉ u := by
  induction h <;> simp_all

theorem annotation_clean (h : Annotation stop d u) : Tok.bad ∉ u := by
  induction h with
  | other h _ _ ih =>
    intro hb
    rcases List.mem_cons.1 hb with rfl | hb
    · exact h rfl
    · exact ih hb
  | _ => simp_all

theorem simple_clean (h : SimpleStatement f u) : Tok.bad ∉ u := by
  cases h with
  | expression h => exact derives_clean h
  | assert h => simp [derives_clean h]
  | assign h h' => simp [derives_clean h, derives_clean h']
  | setAttr h h' => simp [derives_clean h, derives_clean h']
  | annotated h ha _ h' => simp [derives_clean h, derives_clean h', annotation_clean ha]
  | annotatedAttr h ha _ h' => simp [derives_clean h, derives_clean h', annotation_clean ha]
  | augmented h ho h' => cases ho <;> simp [derives_clean h, derives_clean h']
  | unpack h hn h' => simp [derives_clean h, derives_clean h', names_clean hn]

theorem Clean.cons (h : Tok.bad ∉ u) (h' : Clean ls) : Clean ((i, u) :: ls) := by
  intro p hp
  rcases List.mem_cons.1 hp with rfl | hp
  · exact h
  · exact h' p hp

theorem Clean.append (h : Clean ls) (h' : Clean ls') : Clean (ls ++ ls') := by
  intro p hp
  rcases List.mem_append.1 hp with hp | hp
  · exact h p hp
  · exact h' p hp

theorem clean_nil : Clean [] := fun p hp => by cases hp

theorem block_clean (h : Block w st ls) : Clean ls := by
  induction h with
  | nil => exact clean_nil
  | simple h _ ih => exact ih.cons (simple_clean h)
  | ret h => exact clean_nil.cons (by simp [derives_clean h])
  | retTuple h h' => exact clean_nil.cons (by simp [derives_clean h, derives_clean h'])
  | raise h => exact clean_nil.cons (by simp [derives_clean h])
  | ite h _ _ _ h1 h2 h3 => exact ((h1.append h2).append h3).cons (by simp [derives_clean h])
  | forIn _ h _ _ h1 h2 => exact (h1.append h2).cons (by simp [derives_clean h])
  | suite _ _ _ ih => exact ih
  | noElse => exact clean_nil
  | else_ _ ih => exact ih.cons (by simp)
  | elif h _ _ h1 h2 => exact (h1.append h2).cons (by simp [derives_clean h])

theorem parameterType_clean (h : ParameterType u) : Tok.bad ∉ u := by
  cases h with
  | none => simp
  | some h => simp [annotation_clean h]

theorem resultType_clean (h : ResultType u) : Tok.bad ∉ u := by
  cases h with
  | none => simp
  | some h => simp [annotation_clean h]

theorem defaultValue_clean (h : DefaultValue d u) : Tok.bad ∉ u := by
  cases h with
  | none => simp
  | some h => simp [derives_clean h]

theorem parameters_clean (h : Parameters ps u) : Tok.bad ∉ u := by
  induction h with
  | nil => simp
  | last _ h h' => simp [parameterType_clean h, defaultValue_clean h']
  | cons _ h h' _ ih => simp [parameterType_clean h, defaultValue_clean h', ih]

theorem function_clean (h : FunctionDef ind f u ls) : Tok.bad ∉ u ∧ Clean ls := by
  cases h with
  | mk _ hp hr hb => exact ⟨by simp [parameters_clean hp, resultType_clean hr], block_clean hb⟩

theorem decorator_clean (h : Decorator k u) : Tok.bad ∉ u := by
  cases h <;> simp

theorem classBody_clean (h : ClassBody ind ms ls) : Clean ls := by
  induction h with
  | nil => exact clean_nil
  | field _ h _ _ ih => exact ih.cons (by simp [annotation_clean h])
  | fieldDefault _ h _ h' _ ih => exact ih.cons (by simp [annotation_clean h, derives_clean h'])
  | var _ h _ ih => exact ih.cons (by simp [derives_clean h])
  | method h _ _ ih => exact ((function_clean h).2.append ih).cons (by simp [(function_clean h).1])
  | decorated hd h _ ih =>
    exact (((function_clean h).2.append ih).cons (by simp [(function_clean h).1])).cons (decorator_clean hd)

theorem class_clean (h : ClassDef m d c u ls) : Tok.bad ∉ u ∧ Clean ls := by
  cases h with
  | mk _ hb _ _ h => exact ⟨by cases hb <;> simp, classBody_clean h⟩

/-- What is a module by the grammar has no tokens that the lexer refused. -/
theorem moduleText_clean (h : ModuleText m program p ls) : Clean ls := by
  induction h with
  | nil => exact clean_nil
  | import_ h _ ih => exact ih.cons (by simp [names_clean h])
  | fromPackage h _ ih => exact ih.cons (by simp [names_clean h])
  | fromLibrary h _ ih => exact ih.cons (by simp [names_clean h])
  | constant _ _ h _ ih => exact ih.cons (by simp [derives_clean h])
  | class_ h _ ih => exact ((class_clean h).2.append ih).cons (by simp [(class_clean h).1])
  | dataclass h h' _ ih => exact (((class_clean h').2.append ih).cons (by simp [(class_clean h').1])).cons (by simp [derives_clean h])
  | function h _ _ ih => exact ((function_clean h).2.append ih).cons (by simp [(function_clean h).1])
  | statements h _ => exact block_clean h

/-! ## characters -/

theorem chars_text {text : List (List Nat)} (ht : ∀ l ∈ text, l.length ≤ 500 ∧ ∀ c ∈ l, 0 < c ∧ c < 256) : (text.map code).map chars = text := by
  rw [List.map_map]
  conv => rhs; rw [← List.map_id text]
  refine List.map_congr_left fun l hl => ?_
  obtain ⟨h1, h2⟩ := ht l hl
  refine chars_code ⟨fun c hc => (h2 c hc).2, ?_⟩ h1
  cases l with
  | nil => simp
  | cons c l =>
    have := (h2 c (by simp)).1
    intro h0
    cases h0
    omega

theorem charsAux_digits : ∀ (fuel n : Nat) (acc : List Nat), n < 256 ^ fuel → (∀ c ∈ acc, c < 256) →
    (∃ u, charsAux fuel n acc = u ++ acc ∧ code u = n ∧ ∀ c ∈ u, c < 256)
  | 0, n, acc, h, _ => ⟨[], rfl, by simp at h; rw [h]; rfl, by simp⟩
  | fuel + 1, 0, acc, _, _ => ⟨[], rfl, rfl, by simp⟩
  | fuel + 1, n + 1, acc, h, ha => by
    have h1 : (n + 1) / 256 < 256 ^ fuel := by
      rw [Nat.div_lt_iff_lt_mul (by omega), ← Nat.pow_succ]
      exact h
    have h2 : (n + 1) % 256 < 256 := Nat.mod_lt _ (by omega)
    obtain ⟨u, h3, h4, h5⟩ := charsAux_digits fuel ((n + 1) / 256) ((n + 1) % 256 :: acc) h1 (by
      intro c hc
      rcases List.mem_cons.1 hc with rfl | hc
      · exact h2
      · exact ha c hc)
    refine ⟨u ++ [(n + 1) % 256], ?_, ?_, ?_⟩
    · rw [List.append_assoc]; exact h3
    · rw [code_snoc, h4]; omega
    · intro c hc
      rw [List.mem_append, List.mem_singleton] at hc
      rcases hc with hc | rfl
      · exact h5 c hc
      · exact h2

/-- A number of at most 500 base-256 digits is that of its characters. -/
theorem code_chars {n : Nat} (h : Nat.ble (256 ^ 500) n = false) : code (chars n) = n ∧ ∀ c ∈ chars n, c < 256 := by
  obtain ⟨u, h1, h2, h3⟩ := charsAux_digits 500 n [] (nble_false.1 h) (by simp)
  rw [List.append_nil] at h1
  rw [chars, h1]
  exact ⟨h2, h3⟩

/-- The characters of a text whose lines are numbers of at most 500 base-256 digits. -/
theorem characters_text {lines : List Nat} (h : ∀ l ∈ lines, Nat.ble (256 ^ 500) l = false) :
    lines = (lines.map chars).map code ∧ ∀ l ∈ lines.map chars, ∀ c ∈ l, c < 256 := by
  constructor
  · rw [List.map_map]
    conv => lhs; rw [← List.map_id lines]
    exact List.map_congr_left fun l hl => (code_chars (h l hl)).1.symm
  · intro l hl
    obtain ⟨n, hn, rfl⟩ := List.mem_map.1 hl
    exact (code_chars (h n hn)).2

/-! ## the longest match -/

theorem lexeme_single (h : Lexeme t v) : lex .blank v = [t] := by
  obtain ⟨m, h1, h2, _⟩ := reads_lexeme h
  have := h1 []
  rw [List.append_nil] at this
  rw [this, lex, h2]

theorem bytes_no_quote (h : BytesText z b v) : 39 ∉ v := by
  induction h with
  | nil => simp
  | char _ hp _ ih => simp [ih, Ne.symm hp.1]
  | zero _ ih => simp [ih]

/-- Blanks and number signs are in strings and bytes only. -/
theorem lexeme_dark (h : Lexeme t v) (hs : ∀ u, t ≠ .str u) (hb : ∀ b, t ≠ .bytes b) : ∀ c ∈ v, c ≠ 32 ∧ c ≠ 35 := by
  have digits {i : Nat} {u : List Nat} (h : Digits i u) : ∀ c ∈ u, c ≠ 32 ∧ c ≠ 35 := by
    induction h with
    | one hd => intro c hc; cases List.mem_singleton.1 hc; unfold Digit at hd; omega
    | more _ hd ih =>
      intro c hc
      rw [List.mem_append, List.mem_singleton] at hc
      rcases hc with hc | rfl
      · exact ih c hc
      · unfold Digit at hd; omega
    | underscore _ hd ih =>
      intro c hc
      rw [List.mem_append, List.mem_cons, List.mem_singleton] at hc
      rcases hc with hc | rfl | rfl
      · exact ih c hc
      · omega
      · unfold Digit at hd; omega
  have hex {i : Nat} {u : List Nat} (h : HexDigits i u) : ∀ c ∈ u, c ≠ 32 ∧ c ≠ 35 := by
    have one {d c : Nat} (h : HexDigit d c) : c ≠ 32 ∧ c ≠ 35 := by
      cases h with
      | digit h => unfold Digit at h; omega
      | upper => omega
      | lower => omega
    induction h with
    | one hd => intro c hc; cases List.mem_singleton.1 hc; exact one hd
    | more _ hd ih =>
      intro c hc
      rw [List.mem_append, List.mem_singleton] at hc
      rcases hc with hc | rfl
      · exact ih c hc
      · exact one hd
  cases h with
  | name hc hu =>
    intro d hd
    have : Letter d ∨ Digit d := by
      rcases List.mem_cons.1 hd with rfl | hd
      · exact .inl hc
      · exact hu d hd
    unfold Letter Digit at this
    omega
  | int h => exact digits h.1
  | hex h =>
    intro c hc
    rcases List.mem_cons.1 hc with rfl | hc
    · omega
    rcases List.mem_cons.1 hc with rfl | hc
    · omega
    exact hex h c hc
  | float h hz _ =>
    intro c hc
    rcases List.mem_append.1 hc with hc | hc
    · exact digits h.1 c hc
    rcases List.mem_cons.1 hc with rfl | hc
    · omega
    · have := hz c hc
      omega
  | str => exact absurd rfl (hs _)
  | bytes => exact absurd rfl (hb _)
  | operator hu =>
    have : ∀ u ∈ operatorTexts, ∀ c ∈ u, c ≠ 32 ∧ c ≠ 35 := by decide
    exact this _ hu

/-- What has no tokens begins with a blank or a number sign. -/
theorem empty_begins (h : lex .blank (c :: w) = []) : c = 32 ∨ c = 35 := by
  have ht := lex_tokens (c :: w) .blank [] rfl (by rw [h]; simp)
  rw [h, List.nil_append] at ht
  have go (cs : List Nat) (ts : List Tok) (h : Tokens cs ts) (h1 : cs = c :: w) (h2 : ts = []) : c = 32 ∨ c = 35 := by
    cases h with
    | nil => cases h1
    | blank => cases h1; exact .inl rfl
    | comment => cases h1; exact .inr rfl
    | token => cases h2
  exact go _ _ ht rfl rfl

theorem longest (h : Lexeme t u) (hs : ∀ c w, cs = c :: w → Stops t c) (h' : Lexeme t' v) (same : u ++ cs = v ++ cs') : v.length ≤ u.length := by
  rcases List.append_eq_append_iff.1 same with ⟨w, rfl, hc⟩ | ⟨w, rfl, _⟩
  · cases w with
    | nil => simp
    | cons c w =>
      exfalso
      have hstop := hs c (w ++ cs') hc
      obtain ⟨m, h1, h2, h3⟩ := reads_lexeme h
      have h4 := lexeme_single h'
      rw [h1, lex_new (h3 c hstop), h2, List.cons.injEq] at h4
      obtain ⟨rfl, h5⟩ := h4
      have h6 : lex .blank (c :: w) = [] := by
        rw [lex_new (m := .blank) rfl]; exact h5
      have h7 := empty_begins h6
      have h8 : ¬((∀ u, t ≠ .str u) ∧ ∀ b, t ≠ .bytes b) := fun ⟨ha, hb⟩ => by
        have := lexeme_dark h' ha hb c (by simp)
        omega
      cases t with
      | str x =>
        cases h
        generalize hv : (39 :: x ++ [39]) ++ c :: w = v at h'
        cases h'
        have := congrArg List.length hv
        simp at this
      | bytes b =>
        cases h with
        | bytes hb1 =>
          rename_i z1 u1
          generalize hv : (98 :: 39 :: u1 ++ [39]) ++ c :: w = v at h'
          cases h' with
          | bytes hb2 =>
            rename_i z2 u2
            have hq := bytes_no_quote hb2
            have h9 : u1 ++ 39 :: c :: w = u2 ++ [39] := by simpa using hv
            rcases List.append_eq_append_iff.1 h9 with ⟨x, rfl, hx⟩ | ⟨x, rfl, hx⟩
            · cases x with
              | nil => cases hx
              | cons y x =>
                rw [List.cons_append, List.cons.injEq] at hx
                exact hq (by simp [← hx.1])
            · cases x with
              | nil => cases hx
              | cons y x => simp at hx
      | _ => exact h8 ⟨by simp, by simp⟩
  · simp

end Genie.Src.Text
