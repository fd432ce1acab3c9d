import Verif.Spec.PythonLexical
/-!
# The lexer follows the lexical grammar (for C73)
-/

namespace Genie.Src.Text

/-! ## characters -/

theorem code_snoc (u : List Nat) (c : Nat) : code (u ++ [c]) = code u * 256 + c := by
  rw [code, code, List.foldl_append]
  rfl

theorem isLetter_iff {c : Nat} : isLetter c = true ↔ Letter c := by
  simp only [isLetter, isLower, isUpper, Letter, Bool.or_eq_true, Bool.and_eq_true, Nat.ble_eq, Nat.beq_eq]
  omega

theorem isDigit_iff {c : Nat} : isDigit c = true ↔ Digit c := by
  simp only [isDigit, Digit, Bool.and_eq_true, Nat.ble_eq]

theorem isLetter_false {c : Nat} : isLetter c = false ↔ ¬Letter c := by rw [← isLetter_iff, Bool.not_eq_true]

theorem isDigit_false {c : Nat} : isDigit c = false ↔ ¬Digit c := by rw [← isDigit_iff, Bool.not_eq_true]

theorem nbeq {a b : Nat} : Nat.beq a b = true ↔ a = b := by rw [Nat.beq_eq]

theorem nble {a b : Nat} : Nat.ble a b = true ↔ a ≤ b := by rw [Nat.ble_eq]

theorem nble_false {a b : Nat} : Nat.ble a b = false ↔ b < a := by
  rw [← Bool.not_eq_true, Nat.ble_eq]
  omega

theorem nbeq_false {a b : Nat} : Nat.beq a b = false ↔ a ≠ b := by
  rw [← Bool.not_eq_true, Nat.beq_eq]

theorem isOperator_iff {c : Nat} : ∀ {l : List Nat}, isOperator c l = true ↔ c ∈ l
  | [] => by simp [isOperator]
  | d :: l => by
    rw [isOperator, List.mem_cons]
    cases h : Nat.beq c d
    · rw [cond_false, isOperator_iff]
      have := nbeq_false.1 h
      simp [this]
    · rw [cond_true]
      simp [nbeq.1 h]

theorem isOperator_false {c : Nat} {l : List Nat} : isOperator c l = false ↔ c ∉ l := by rw [← isOperator_iff, Bool.not_eq_true]

theorem operators_texts : ∀ c, c ∈ operators ↔ ∃ u ∈ operatorTexts, code u = c := by
  have h1 : ∀ c ∈ operators, ∃ u ∈ operatorTexts, code u = c := by decide
  have h2 : ∀ u ∈ operatorTexts, code u ∈ operators := by decide
  intro c
  exact ⟨h1 c, fun ⟨u, hu, h⟩ => h ▸ h2 u hu⟩

theorem hexVal_some {c d : Nat} : hexVal c = some d ↔ HexDigit d c := by
  constructor
  · intro h
    rw [hexVal] at h
    cases h1 : isDigit c
    · rw [h1, cond_false] at h
      cases h2 : (Nat.ble 65 c && Nat.ble c 70)
      · rw [h2, cond_false] at h
        cases h3 : (Nat.ble 97 c && Nat.ble c 102)
        · rw [h3] at h; cases h
        · rw [h3] at h; cases h
          rw [Bool.and_eq_true, Nat.ble_eq, Nat.ble_eq] at h3
          exact .lower h3.1 h3.2
      · rw [h2] at h; cases h
        rw [Bool.and_eq_true, Nat.ble_eq, Nat.ble_eq] at h2
        exact .upper h2.1 h2.2
    · rw [h1] at h; cases h
      exact .digit (isDigit_iff.1 h1)
  · intro h
    cases h with
    | digit h => rw [hexVal, isDigit_iff.2 h]; rfl
    | upper h1 h2 =>
      have : isDigit c = false := isDigit_false.2 fun h => by have := h.2; omega
      rw [hexVal, this, cond_false, nble.2 h1, nble.2 h2]; rfl
    | lower h1 h2 =>
      have : isDigit c = false := isDigit_false.2 fun h => by have := h.2; omega
      have h3 : Nat.ble c 70 = false := by rw [← Bool.not_eq_true, Nat.ble_eq]; omega
      rw [hexVal, this, cond_false, h3, Bool.and_false, cond_false, nble.2 h1, nble.2 h2]; rfl

theorem hexVal_none {c : Nat} (h : hexVal c = none) : ¬Digit c := by
  intro hd
  rw [hexVal, isDigit_iff.2 hd] at h
  cases h

theorem code_cons_le (c : Nat) (v : List Nat) : c * 256 ^ v.length ≤ code (c :: v) := by
  have h : ∀ (v : List Nat) (n : Nat), n * 256 ^ v.length ≤ v.foldl (fun n c => n * 256 + c) n := by
    intro v
    induction v with
    | nil => intro n; simp
    | cons d v ih =>
      intro n
      refine Nat.le_trans ?_ (ih (n * 256 + d))
      rw [List.length_cons, Nat.pow_succ, Nat.mul_comm (256 ^ v.length), ← Nat.mul_assoc]
      exact Nat.mul_le_mul_right _ (Nat.le_add_right _ _)
  have := h v c
  rw [code, List.foldl_cons, Nat.zero_mul, Nat.zero_add]
  exact this

/-- Characters of a byte each; the first one is not 0. -/
def Proper (u : List Nat) : Prop := (∀ c ∈ u, c < 256) ∧ u.head? ≠ some 0

theorem code_zero (h : Proper u) (h0 : code u = 0) : u = [] := by
  cases u with
  | nil => rfl
  | cons c v =>
    have := code_cons_le c v
    have h1 : 1 ≤ 256 ^ v.length := Nat.one_le_pow _ _ (by omega)
    have hc : c ≠ 0 := fun h' => h.2 (by rw [h']; rfl)
    have h2 : 1 * 1 ≤ c * 256 ^ v.length := Nat.mul_le_mul (by omega) h1
    omega

theorem Proper.init (h : Proper (u ++ [c])) : Proper u := by
  refine ⟨fun d hd => h.1 d (List.mem_append_left _ hd), ?_⟩
  cases u with
  | nil => simp
  | cons d v => exact h.2

theorem code_inj_rev : ∀ (u v : List Nat), Proper u.reverse → Proper v.reverse → code u.reverse = code v.reverse → u = v := by
  intro u
  induction u with
  | nil =>
    intro v _ hv h
    have := code_zero hv h.symm
    exact (List.reverse_eq_nil_iff.1 this).symm
  | cons c u ih =>
    intro v hu hv h
    cases v with
    | nil =>
      have := code_zero hu h
      exact List.reverse_eq_nil_iff.1 this
    | cons d v =>
      rw [List.reverse_cons] at hu hv h
      rw [List.reverse_cons, code_snoc, code_snoc] at h
      have h1 := hu.1 c (by simp)
      have h2 := hv.1 d (by simp)
      have : c = d := by omega
      subst this
      rw [ih v hu.init hv.init (by omega)]

theorem code_inj {u v : List Nat} (hu : Proper u) (hv : Proper v) (h : code u = code v) : u = v := by
  have := code_inj_rev u.reverse v.reverse (by rwa [List.reverse_reverse]) (by rwa [List.reverse_reverse])
    (by rwa [List.reverse_reverse, List.reverse_reverse])
  rw [← List.reverse_reverse u, this, List.reverse_reverse]

theorem texts_proper : ∀ u ∈ operatorTexts, u ≠ [] ∧ (∀ c ∈ u, 33 ≤ c ∧ c ≤ 127) := by decide

theorem proper_of {u : List Nat} (h : ∀ c ∈ u, 33 ≤ c ∧ c ≤ 127) : Proper u := by
  refine ⟨fun c hc => by have := h c hc; omega, ?_⟩
  cases u with
  | nil => simp
  | cons c v =>
    have := h c (by simp)
    intro h0
    cases h0
    omega

theorem operator_text {u : List Nat} (h : u ∈ operatorTexts ∨ ∃ a, u = [a] ∧ 33 ≤ a ∧ a ≤ 127) (hc : c ≤ 127) (ho : code (u ++ [c]) ∈ operators) :
    u ++ [c] ∈ operatorTexts := by
  obtain ⟨w, hw, he⟩ := (operators_texts _).1 ho
  have hu : u ≠ [] ∧ ∀ c ∈ u, 33 ≤ c ∧ c ≤ 127 := by
    rcases h with h | ⟨a, rfl, h⟩
    · exact texts_proper u h
    · exact ⟨by simp, fun c hc => by cases List.mem_singleton.1 hc; exact h⟩
  have hp : Proper (u ++ [c]) := by
    refine ⟨fun d hd => ?_, ?_⟩
    · rw [List.mem_append, List.mem_singleton] at hd
      rcases hd with hd | rfl
      · have := hu.2 d hd; omega
      · omega
    · obtain ⟨h1, h2⟩ := hu
      cases u with
      | nil => exact absurd rfl h1
      | cons d v => exact (proper_of h2).2
  rw [← code_inj (proper_of (texts_proper w hw).2) hp he]
  exact hw

/-! ## tokens of the lexer are tokens -/

/-- In this mode, the lexer has read these characters of the token. -/
def Mode.Has : Mode → List Nat → Prop
  | .blank, u => u = []
  | .comment, u => ∃ v, u = 35 :: v
  | .name x, u => ∃ c v, u = c :: v ∧ Letter c ∧ (∀ d ∈ v, Letter d ∨ Digit d) ∧ x = code u
  | .zero, u => u = [48]
  | .int i, u => Decimal i u
  | .under i, u => ∃ v, u = v ++ [95] ∧ Decimal i v
  | .hexStart, u => u = [48, 120]
  | .hex i, u => ∃ v, u = 48 :: 120 :: v ∧ HexDigits i v
  | .frac i, u => ∃ v w, u = v ++ 46 :: w ∧ Decimal i v ∧ ∀ d ∈ w, d = 48
  | .str cs, u => u = 39 :: cs.reverse ∧ ∀ c ∈ cs, Plain c
  | .bytes b, u => ∃ v, u = 98 :: 39 :: v ∧ BytesText false b.reverse v
  | .escape b, u => ∃ v z, u = 98 :: 39 :: v ++ [92] ∧ BytesText z b.reverse v
  | .zeroEscape b, u => ∃ v, u = 98 :: 39 :: v ∧ BytesText true b.reverse v
  | .op c, u => c = code u ∧ (u ∈ operatorTexts ∨ ∃ a, u = [a] ∧ 33 ≤ a ∧ a ≤ 127)
  | .full t, u => Lexeme t u ∧ ∀ c, c ≠ 39 → Stops t c
  | .bad, _ => True

theorem decimal_zero : Decimal 0 [48] := ⟨.one (c := 48) (by unfold Digit; omega), fun _ => rfl⟩

theorem Digits.ne_nil (h : Digits i u) : ∃ c v, u = c :: v := by
  cases h <;> exact List.exists_cons_of_ne_nil (by simp)

/-- One more digit of a number, if it is no zero before other digits. -/
theorem Decimal.more (h : Decimal i u) (hd : Digit c) (hz : i = 0 → c = 48) : Decimal (i * 10 + (c - 48)) (u ++ [c]) := by
  refine ⟨.more h.1 hd, fun h0 => ?_⟩
  obtain ⟨d, v, rfl⟩ := h.1.ne_nil
  have := h.2 h0
  have := hz this
  omega

theorem Decimal.underscore (h : Decimal i u) (hd : Digit c) (hz : i = 0 → c = 48) : Decimal (i * 10 + (c - 48)) (u ++ [95, c]) := by
  refine ⟨.underscore h.1 hd, fun h0 => ?_⟩
  obtain ⟨d, v, rfl⟩ := h.1.ne_nil
  have := h.2 h0
  have := hz this
  omega

theorem moreDigits_has (h : Decimal i u) (hd : isDigit c = true) : (moreDigits i c).Has (u ++ [c]) := by
  rw [moreDigits]
  cases hz : (Nat.beq i 0 && !Nat.beq c 48)
  · rw [cond_false]
    refine h.more (isDigit_iff.1 hd) fun h0 => ?_
    subst h0
    cases hc : Nat.beq c 48
    · rw [hc] at hz; cases hz
    · exact nbeq.1 hc
  · exact trivial

theorem moreDigits_under (h : Decimal i u) (hd : isDigit c = true) : (moreDigits i c).Has (u ++ [95] ++ [c]) := by
  rw [moreDigits]
  cases hz : (Nat.beq i 0 && !Nat.beq c 48)
  · rw [cond_false, List.append_assoc]
    refine h.underscore (isDigit_iff.1 hd) fun h0 => ?_
    subst h0
    cases hc : Nat.beq c 48
    · rw [hc] at hz; cases hz
    · exact nbeq.1 hc
  · exact trivial

theorem afterDigits_has (h : Decimal i u) (hs : afterDigits i c = some m) : m.Has (u ++ [c]) := by
  rw [afterDigits] at hs
  cases h1 : Nat.beq c 95
  · rw [h1, cond_false] at hs
    cases h2 : Nat.beq c 46
    · rw [h2, cond_false] at hs
      cases h3 : isLetter c
      · rw [h3] at hs; cases hs
      · rw [h3] at hs; cases hs; exact trivial
    · rw [h2] at hs; cases hs
      cases nbeq.1 h2
      exact ⟨u, [], rfl, h, by simp⟩
  · rw [h1] at hs; cases hs
    cases nbeq.1 h1
    exact ⟨u, rfl, h⟩

theorem afterDigits_none (hd : isDigit c = false) (hs : afterDigits i c = none) : ¬Letter c ∧ ¬Digit c ∧ c ≠ 46 := by
  rw [afterDigits] at hs
  cases h1 : Nat.beq c 95
  · rw [h1, cond_false] at hs
    cases h2 : Nat.beq c 46
    · rw [h2, cond_false] at hs
      cases h3 : isLetter c
      · exact ⟨isLetter_false.1 h3, isDigit_false.1 hd, nbeq_false.1 h2⟩
      · rw [h3] at hs; cases hs
    · rw [h2] at hs; cases hs
  · rw [h1] at hs; cases hs

theorem code_b {c : Nat} {v : List Nat} (hc : Letter c) (h : code (c :: v) = 98) : c = 98 ∧ v = [] := by
  cases v with
  | nil => exact ⟨by simpa [code] using h, rfl⟩
  | cons d v =>
    exfalso
    have := code_cons_le c (d :: v)
    rw [h, List.length_cons, Nat.pow_succ] at this
    have h1 : 1 ≤ 256 ^ v.length := Nat.one_le_pow _ _ (by omega)
    have hc : 65 ≤ c := by unfold Letter at hc; omega
    have h2 : 65 * (1 * 256) ≤ c * (256 ^ v.length * 256) := Nat.mul_le_mul hc (Nat.mul_le_mul h1 (Nat.le_refl _))
    omega

/-- The next character belongs to the token. -/
theorem Mode.has_step {m m' : Mode} (h : m.Has u) (hs : m.step c = some m') : m'.Has (u ++ [c]) := by
  cases m with
  | blank => cases hs
  | bad => cases hs; exact trivial
  | comment =>
    cases hs
    obtain ⟨v, rfl⟩ := h
    exact ⟨v ++ [c], rfl⟩
  | name x =>
    obtain ⟨d, v, rfl, h1, h2, rfl⟩ := h
    rw [step] at hs
    cases h3 : (isLetter c || isDigit c)
    · rw [h3, cond_false] at hs
      cases h4 : Nat.beq c 39
      · rw [h4] at hs; cases hs
      · rw [h4, cond_true] at hs
        cases h5 : Nat.beq (code (d :: v)) 98
        · rw [h5] at hs; cases hs; exact trivial
        · rw [h5] at hs; cases hs
          obtain ⟨rfl, rfl⟩ := code_b h1 (nbeq.1 h5)
          cases nbeq.1 h4
          exact ⟨[], rfl, .nil⟩
    · rw [h3] at hs; cases hs
      refine ⟨d, v ++ [c], rfl, h1, ?_, (code_snoc _ _).symm⟩
      rw [Bool.or_eq_true, isLetter_iff, isDigit_iff] at h3
      intro e he
      rw [List.mem_append, List.mem_singleton] at he
      rcases he with he | rfl
      · exact h2 e he
      · exact h3
  | zero =>
    cases h
    rw [step] at hs
    cases h1 : Nat.beq c 120
    · rw [h1, cond_false] at hs
      cases h2 : isDigit c
      · rw [h2] at hs; exact afterDigits_has decimal_zero hs
      · rw [h2] at hs; cases hs; exact moreDigits_has decimal_zero h2
    · rw [h1] at hs; cases hs
      cases nbeq.1 h1
      rfl
  | int i =>
    rw [step] at hs
    cases h2 : isDigit c
    · rw [h2] at hs; exact afterDigits_has h hs
    · rw [h2] at hs; cases hs; exact moreDigits_has h h2
  | under i =>
    obtain ⟨v, rfl, h⟩ := h
    rw [step] at hs
    cases h2 : isDigit c
    · rw [h2] at hs; cases hs; exact trivial
    · rw [h2] at hs; cases hs; exact moreDigits_under h h2
  | hexStart =>
    cases h
    rw [step] at hs
    cases h2 : hexVal c with
    | none => rw [h2] at hs; cases hs; exact trivial
    | some d => rw [h2] at hs; cases hs; exact ⟨[c], rfl, .one (hexVal_some.1 h2)⟩
  | hex i =>
    obtain ⟨v, rfl, h⟩ := h
    rw [step] at hs
    cases h2 : hexVal c with
    | none =>
      rw [h2] at hs
      cases h3 : (isLetter c || Nat.beq c 46)
      · rw [h3] at hs; cases hs
      · rw [h3] at hs; cases hs; exact trivial
    | some d => rw [h2] at hs; cases hs; exact ⟨v ++ [c], rfl, .more h (hexVal_some.1 h2)⟩
  | frac i =>
    obtain ⟨v, w, rfl, h, hw⟩ := h
    rw [step] at hs
    cases h2 : Nat.beq c 48
    · rw [h2, cond_false] at hs
      cases h3 : (isDigit c || isLetter c)
      · rw [h3] at hs; cases hs
      · rw [h3] at hs; cases hs; exact trivial
    · rw [h2] at hs; cases hs
      cases nbeq.1 h2
      refine ⟨v, w ++ [48], by simp, h, ?_⟩
      intro d hd
      rw [List.mem_append, List.mem_singleton] at hd
      rcases hd with hd | rfl
      · exact hw d hd
      · rfl
  | str cs =>
    obtain ⟨rfl, h⟩ := h
    rw [step] at hs
    cases h1 : Nat.beq c 39
    · rw [h1, cond_false] at hs
      cases h2 : (Nat.beq c 92 || Nat.ble 128 c)
      · rw [h2] at hs; cases hs
        refine ⟨by simp, ?_⟩
        intro d hd
        rcases List.mem_cons.1 hd with rfl | hd
        · rw [Bool.or_eq_false_iff, nbeq_false, ← Bool.not_eq_true, Nat.ble_eq] at h2
          exact ⟨nbeq_false.1 h1, h2.1, by omega⟩
        · exact h d hd
      · rw [h2] at hs; cases hs; exact trivial
    · rw [h1] at hs; cases hs
      cases nbeq.1 h1
      exact ⟨.str (by simpa using h), fun _ h => h⟩
  | bytes b =>
    obtain ⟨v, rfl, h⟩ := h
    rw [step] at hs
    cases h1 : Nat.beq c 39
    · rw [h1, cond_false] at hs
      cases h2 : Nat.beq c 92
      · rw [h2, cond_false] at hs
        cases h3 : Nat.ble 128 c
        · rw [h3] at hs; cases hs
          rw [← Bool.not_eq_true, Nat.ble_eq] at h3
          refine ⟨v ++ [c], rfl, ?_⟩
          rw [List.reverse_cons]
          exact .char h ⟨nbeq_false.1 h1, nbeq_false.1 h2, by omega⟩ (fun h => by cases h)
        · rw [h3] at hs; cases hs; exact trivial
      · rw [h2] at hs; cases hs
        cases nbeq.1 h2
        exact ⟨v, _, rfl, h⟩
    · rw [h1] at hs; cases hs
      cases nbeq.1 h1
      exact ⟨.bytes h, fun _ h => h⟩
  | escape b =>
    obtain ⟨v, z, rfl, h⟩ := h
    rw [step] at hs
    cases h1 : Nat.beq c 48
    · rw [h1] at hs; cases hs; exact trivial
    · rw [h1] at hs; cases hs
      cases nbeq.1 h1
      refine ⟨v ++ [92, 48], by simp, ?_⟩
      rw [List.reverse_cons]
      exact .zero h
  | zeroEscape b =>
    obtain ⟨v, rfl, h⟩ := h
    rw [step] at hs
    cases h1 : Nat.beq c 39
    · rw [h1, cond_false] at hs
      cases h2 : Nat.beq c 92
      · rw [h2, cond_false] at hs
        cases h3 : (Nat.ble 128 c || (Nat.ble 48 c && Nat.ble c 55))
        · rw [h3] at hs; cases hs
          rw [Bool.or_eq_false_iff, ← Bool.not_eq_true, Nat.ble_eq, ← Bool.not_eq_true, Bool.and_eq_true, Nat.ble_eq, Nat.ble_eq] at h3
          refine ⟨v ++ [c], rfl, ?_⟩
          rw [List.reverse_cons]
          exact .char h ⟨nbeq_false.1 h1, nbeq_false.1 h2, by omega⟩ (fun _ => h3.2)
        · rw [h3] at hs; cases hs; exact trivial
      · rw [h2] at hs; cases hs
        cases nbeq.1 h2
        exact ⟨v, _, rfl, h⟩
    · rw [h1] at hs; cases hs
      cases nbeq.1 h1
      exact ⟨.bytes h, fun _ h => h⟩
  | op d =>
    obtain ⟨rfl, h⟩ := h
    rw [step] at hs
    cases h1 : Nat.beq (code u) 92
    · rw [h1, cond_false] at hs
      cases h2 : (Nat.ble c 127 && isOperator (code u * 256 + c) operators)
      · rw [h2] at hs; cases hs
      · rw [h2] at hs; cases hs
        refine ⟨(code_snoc _ _).symm, .inl ?_⟩
        rw [Bool.and_eq_true, isOperator_iff, ← code_snoc, nble] at h2
        exact operator_text h h2.1 h2.2
    · rw [h1] at hs; cases hs; exact trivial
  | full t =>
    rw [step] at hs
    cases h1 : Nat.beq c 39
    · rw [h1] at hs; cases hs
    · rw [h1] at hs; cases hs; exact trivial

theorem lex_step (h : m.step c = some m') (cs : List Nat) : lex m (c :: cs) = lex m' cs := by rw [lex, h]

theorem lex_new (h : m.step c = none) (cs : List Nat) : lex m (c :: cs) = m.finish (lex (Mode.start c) cs) := by rw [lex, h]

theorem bad_stays : ∀ cs, Tok.bad ∈ lex .bad cs
  | [] => List.mem_cons_self
  | c :: cs => by
    rw [lex_step (m' := .bad) rfl]
    exact bad_stays cs

theorem start_has (c : Nat) : Mode.start c = .blank ∧ c = 32 ∨ (Mode.start c).Has [c] ∧ Mode.start c ≠ .blank := by
  rw [Mode.start]
  cases h1 : Nat.beq c 32
  · right
    rw [cond_false]
    cases h2 : isLetter c
    · rw [cond_false]
      cases h3 : isDigit c
      · rw [cond_false]
        cases h4 : Nat.beq c 39
        · rw [cond_false]
          cases h5 : Nat.beq c 35
          · rw [cond_false]
            cases h6 : (Nat.ble 33 c && Nat.ble c 127)
            · exact ⟨trivial, by simp⟩
            · rw [Bool.and_eq_true, nble, nble] at h6
              exact ⟨⟨by simp [code], .inr ⟨c, rfl, h6⟩⟩, by simp⟩
          · cases nbeq.1 h5
            exact ⟨⟨[], rfl⟩, by simp⟩
        · cases nbeq.1 h4
          exact ⟨⟨rfl, by simp⟩, by simp⟩
      · rw [cond_true]
        cases h4 : Nat.beq c 48
        · exact ⟨⟨.one (isDigit_iff.1 h3), fun h => by cases h; cases h4⟩, by simp⟩
        · cases nbeq.1 h4
          exact ⟨rfl, by simp⟩
    · exact ⟨⟨c, [], rfl, isLetter_iff.1 h2, by simp, by simp [code]⟩, by simp⟩
  · exact .inl ⟨rfl, nbeq.1 h1⟩

theorem frac_finish {i : Nat} {ts : List Tok} (h : Tok.bad ∉ (Mode.frac i).finish ts) :
    ∃ bits, (Mode.frac i).finish ts = .float bits :: ts ∧ FloatBits i bits := by
  rw [Mode.finish] at h ⊢
  cases h1 : Nat.beq i 0
  · rw [h1, cond_false] at h
    cases h2 : Nat.beq i 1
    · rw [h2, cond_false] at h
      exact absurd List.mem_cons_self h
    · cases nbeq.1 h2
      exact ⟨_, rfl, .one⟩
  · cases nbeq.1 h1
    exact ⟨_, rfl, .zero⟩

theorem op_finish {c : Nat} {ts : List Tok} (h : Tok.bad ∉ (Mode.op c).finish ts) :
    (Mode.op c).finish ts = .op c :: ts ∧ c ∈ operators := by
  rw [Mode.finish] at h ⊢
  cases h1 : isOperator c operators
  · rw [h1, cond_false] at h
    exact absurd List.mem_cons_self h
  · exact ⟨rfl, isOperator_iff.1 h1⟩

/-- An operator that has been read. -/
theorem op_lexeme {u : List Nat} (h : u ∈ operatorTexts ∨ ∃ a, u = [a] ∧ 33 ≤ a ∧ a ≤ 127) (ho : code u ∈ operators) : u ∈ operatorTexts := by
  rcases h with h | ⟨a, rfl, h1, h2⟩
  · exact h
  · obtain ⟨w, hw, he⟩ := (operators_texts _).1 ho
    rw [← code_inj (proper_of (texts_proper w hw).2) (proper_of fun c hc => by cases List.mem_singleton.1 hc; exact ⟨h1, h2⟩) he]
    exact hw

/-- The token that has ended, if it is one. -/
theorem Mode.has_finish {m : Mode} {u : List Nat} {ts : List Tok} (h : m.Has u) (hb : Tok.bad ∉ m.finish ts) :
    (m.finish ts = ts ∧ (m = .blank ∨ m = .comment)) ∨
    ∃ t, m.finish ts = t :: ts ∧ Lexeme t u ∧ ∀ c, m.step c = none → Stops t c := by
  cases m with
  | blank => exact .inl ⟨rfl, .inl rfl⟩
  | comment => exact .inl ⟨rfl, .inr rfl⟩
  | name x =>
    obtain ⟨d, v, rfl, h1, h2, rfl⟩ := h
    refine .inr ⟨_, rfl, .name h1 h2, fun c hs => ?_⟩
    rw [step] at hs
    cases h3 : (isLetter c || isDigit c)
    · rw [h3, cond_false] at hs
      rw [Bool.or_eq_false_iff, isLetter_false, isDigit_false] at h3
      refine ⟨h3.1, h3.2, fun h4 => ?_⟩
      rw [nbeq.2 h4, cond_true] at hs
      cases h5 : Nat.beq (code (d :: v)) 98 <;> · rw [h5] at hs; cases hs
    · rw [h3] at hs; cases hs
  | zero =>
    cases h
    refine .inr ⟨_, rfl, .int decimal_zero, fun c hs => ?_⟩
    rw [step] at hs
    cases h1 : Nat.beq c 120
    · rw [h1, cond_false] at hs
      cases h2 : isDigit c
      · rw [h2] at hs; exact afterDigits_none h2 hs
      · rw [h2] at hs; cases hs
    · rw [h1] at hs; cases hs
  | int i =>
    refine .inr ⟨_, rfl, .int h, fun c hs => ?_⟩
    rw [step] at hs
    cases h2 : isDigit c
    · rw [h2] at hs; exact afterDigits_none h2 hs
    · rw [h2] at hs; cases hs
  | hex i =>
    obtain ⟨v, rfl, h⟩ := h
    refine .inr ⟨_, rfl, .hex h, fun c hs => ?_⟩
    rw [step] at hs
    cases h2 : hexVal c with
    | none =>
      rw [h2] at hs
      cases h3 : (isLetter c || Nat.beq c 46)
      · rw [Bool.or_eq_false_iff, isLetter_false, nbeq_false] at h3
        exact ⟨h3.1, hexVal_none h2, h3.2⟩
      · simp only [h3] at hs; cases hs
    | some d => rw [h2] at hs; cases hs
  | frac i =>
    obtain ⟨v, w, rfl, h, hw⟩ := h
    obtain ⟨bits, h1, h2⟩ := frac_finish hb
    refine .inr ⟨_, h1, .float h hw h2, fun c hs => ?_⟩
    rw [step] at hs
    cases h2 : Nat.beq c 48
    · rw [h2, cond_false] at hs
      cases h3 : (isDigit c || isLetter c)
      · rw [Bool.or_eq_false_iff, isLetter_false, isDigit_false] at h3
        exact ⟨h3.2, h3.1⟩
      · rw [h3] at hs; cases hs
    · rw [h2] at hs; cases hs
  | op d =>
    obtain ⟨rfl, h⟩ := h
    obtain ⟨h1, h2⟩ := op_finish hb
    have hu := op_lexeme h h2
    refine .inr ⟨_, h1, .operator hu, fun c hs => ?_⟩
    rw [step] at hs
    cases h3 : Nat.beq (code u) 92
    · rw [h3, cond_false] at hs
      refine ⟨nbeq_false.1 h3, fun w hw he hc => ?_⟩
      cases code_inj (proper_of (texts_proper w hw).2) (proper_of (texts_proper u hu).2) he
      have h4 := ((texts_proper _ hc).2 c (by simp)).2
      have h5 : code (u ++ [c]) ∈ operators := (operators_texts _).2 ⟨_, hc, rfl⟩
      rw [code_snoc] at h5
      rw [nble.2 h4, isOperator_iff.2 h5] at hs
      cases hs
    · rw [h3] at hs; cases hs
  | full t =>
    obtain ⟨h1, h2⟩ := h
    refine .inr ⟨_, rfl, h1, fun c hs => h2 c ?_⟩
    rw [step] at hs
    intro h3
    rw [nbeq.2 h3] at hs
    cases hs
  | under => exact absurd List.mem_cons_self hb
  | hexStart => exact absurd List.mem_cons_self hb
  | str => exact absurd List.mem_cons_self hb
  | bytes => exact absurd List.mem_cons_self hb
  | escape => exact absurd List.mem_cons_self hb
  | zeroEscape => exact absurd List.mem_cons_self hb
  | bad => exact absurd List.mem_cons_self hb

theorem finish_keeps {m : Mode} {ts : List Tok} (h : Tok.bad ∈ ts) : Tok.bad ∈ m.finish ts := by
  cases m with
  | frac i =>
    rw [Mode.finish]
    cases Nat.beq i 0 <;> cases Nat.beq i 1 <;> simp [h]
  | op c =>
    rw [Mode.finish]
    cases isOperator c operators <;> simp [h]
  | _ => simp [Mode.finish, h]

theorem comment_rest : ∀ cs, lex .comment cs = []
  | [] => rfl
  | c :: cs => by rw [lex_step (m' := .comment) rfl, comment_rest cs]

/-- Tokens that the lexer returns are those of the grammar. -/
theorem lex_tokens : ∀ (cs : List Nat) (m : Mode) (u : List Nat), m.Has u → Tok.bad ∉ lex m cs → Tokens (u ++ cs) (lex m cs) := by
  intro cs
  induction cs with
  | nil =>
    intro m u h hb
    rw [lex] at hb ⊢
    rcases Mode.has_finish h hb with ⟨h1, rfl | rfl⟩ | ⟨t, h1, h2, h3⟩
    · cases h; exact .nil
    · obtain ⟨v, rfl⟩ := h; exact .comment
    · rw [h1]
      exact .token h2 (fun c v h => by cases h) .nil
  | cons c cs ih =>
    intro m u h hb
    cases hs : m.step c with
    | some m' =>
      rw [lex_step hs] at hb ⊢
      have := ih m' (u ++ [c]) (Mode.has_step h hs) hb
      rwa [List.append_assoc] at this
    | none =>
      rw [lex_new hs] at hb ⊢
      have hb' : Tok.bad ∉ lex (Mode.start c) cs := fun h => hb (finish_keeps h)
      have hn : Tokens (c :: cs) (lex (Mode.start c) cs) := by
        rcases start_has c with ⟨h1, rfl⟩ | ⟨h1, _⟩
        · rw [h1] at hb' ⊢
          exact .blank (ih .blank [] rfl hb')
        · exact ih _ [c] h1 hb'
      rcases Mode.has_finish h hb with ⟨h1, rfl | rfl⟩ | ⟨t, h1, h2, h3⟩
      · cases h
        rw [h1]
        exact hn
      · cases hs
      · rw [h1]
        exact .token h2 (fun d v h => by cases h; exact h3 c hs) hn

/-! ## tokens of the grammar are read -/

/-- The lexer has read the characters `u` and is in mode `m`. -/
def Reads (u : List Nat) (m : Mode) : Prop := ∀ cs, lex .blank (u ++ cs) = lex m cs

theorem reads_first {c : Nat} (h : c ≠ 32) : Reads [c] (Mode.start c) := by
  intro cs
  rw [List.singleton_append, lex_new (m := .blank) rfl]
  rfl

theorem Reads.step (h : Reads u m) (hs : m.step c = some m') : Reads (u ++ [c]) m' := by
  intro cs
  rw [List.append_assoc, h, List.singleton_append, lex_step hs]

theorem digit_not_letter {c : Nat} (h : Digit c) : isLetter c = false := by
  rw [isLetter_false]
  unfold Digit at h
  unfold Letter
  omega

theorem start_letter {c : Nat} (h : Letter c) : Mode.start c = .name c := by
  have h1 : Nat.beq c 32 = false := nbeq_false.2 (by unfold Letter at h; omega)
  rw [Mode.start, h1, cond_false, isLetter_iff.2 h, cond_true]

theorem reads_name : ∀ (v : List Nat), (∀ d ∈ v, Letter d ∨ Digit d) → ∀ (u : List Nat), Reads u (.name (code u)) → Reads (u ++ v) (.name (code (u ++ v))) := by
  intro v
  induction v with
  | nil => intro _ u h; rwa [List.append_nil]
  | cons d v ih =>
    intro hd u h
    have h1 : (isLetter d || isDigit d) = true := by
      rw [Bool.or_eq_true, isLetter_iff, isDigit_iff]
      exact hd d (by simp)
    have h2 : Reads (u ++ [d]) (.name (code (u ++ [d]))) := by
      rw [code_snoc]
      exact h.step (by rw [Mode.step, h1, cond_true])
    have := ih (fun e he => hd e (List.mem_cons_of_mem _ he)) _ h2
    rwa [List.append_assoc] at this

/-- A number is zero exactly if it has only zeros. -/
theorem digits_zero (h : Digits i u) (h0 : i = 0) : u.head? = some 48 := by
  induction h with
  | one hd =>
    unfold Digit at hd
    rename_i c
    have : c = 48 := by omega
    rw [this]; rfl
  | more h hd ih =>
    have := ih (by omega)
    obtain ⟨a, v, rfl⟩ := h.ne_nil
    exact this
  | underscore h hd ih =>
    have := ih (by omega)
    obtain ⟨a, v, rfl⟩ := h.ne_nil
    exact this

/-- A number without superfluous zeros at the beginning is read: up to one digit, in the mode for one zero or for digits. -/
theorem reads_digits (h : Digits i u) (hz : u.head? = some 48 → i = 0) :
    Reads u (.int i) ∨ Reads u .zero ∧ i = 0 := by
  induction h with
  | one hd =>
    rename_i c
    have h1 : Nat.beq c 32 = false := nbeq_false.2 (by unfold Digit at hd; omega)
    have h2 : Mode.start c = cond (Nat.beq c 48) .zero (.int (c - 48)) := by
      rw [Mode.start, h1, cond_false, digit_not_letter hd, cond_false, isDigit_iff.2 hd, cond_true]
    have h3 := reads_first (nbeq_false.1 h1)
    rw [h2] at h3
    cases h4 : Nat.beq c 48
    · rw [h4] at h3; exact .inl h3
    · rw [h4] at h3
      cases nbeq.1 h4
      exact .inr ⟨h3, rfl⟩
  | more h hd ih =>
    rename_i i u c
    obtain ⟨a, v, rfl⟩ := h.ne_nil
    have hz' : (a :: v).head? = some 48 → i = 0 := fun h0 => by
      have := hz h0
      omega
    have hm : moreDigits i c = .int (i * 10 + (c - 48)) := by
      rw [moreDigits]
      cases h5 : (Nat.beq i 0 && !Nat.beq c 48)
      · rfl
      · exfalso
        rw [Bool.and_eq_true, nbeq, Bool.not_eq_true', nbeq_false] at h5
        obtain ⟨rfl, h5⟩ := h5
        have h6 := digits_zero h rfl
        have := hz h6
        unfold Digit at hd
        omega
    left
    rcases ih hz' with h1 | ⟨h1, rfl⟩
    · exact h1.step (by rw [Mode.step, isDigit_iff.2 hd, cond_true, hm])
    · refine h1.step ?_
      have h2 : Nat.beq c 120 = false := nbeq_false.2 (by unfold Digit at hd; omega)
      rw [Mode.step, h2, cond_false, isDigit_iff.2 hd, cond_true, hm]
  | underscore h hd ih =>
    rename_i i u c
    obtain ⟨a, v, rfl⟩ := h.ne_nil
    have hz' : (a :: v).head? = some 48 → i = 0 := fun h0 => by
      have := hz h0
      omega
    have hm : moreDigits i c = .int (i * 10 + (c - 48)) := by
      rw [moreDigits]
      cases h5 : (Nat.beq i 0 && !Nat.beq c 48)
      · rfl
      · exfalso
        rw [Bool.and_eq_true, nbeq, Bool.not_eq_true', nbeq_false] at h5
        obtain ⟨rfl, h5⟩ := h5
        have h6 := digits_zero h rfl
        have := hz h6
        unfold Digit at hd
        omega
    left
    have h7 : Reads (a :: v ++ [95]) (.under i) := by
      rcases ih hz' with h1 | ⟨h1, rfl⟩
      · exact h1.step rfl
      · exact h1.step rfl
    have h8 := h7.step (c := c) (m' := .int (i * 10 + (c - 48))) (by rw [Mode.step, isDigit_iff.2 hd, cond_true, hm])
    rwa [List.append_assoc] at h8

theorem reads_hex (h : HexDigits i v) : Reads (48 :: 120 :: v) (.hex i) := by
  have h0 : Reads [48, 120] .hexStart := (reads_first (c := 48) (by decide)).step rfl
  induction h with
  | one hd => exact h0.step (by rw [Mode.step, hexVal_some.2 hd])
  | more h hd ih => exact Reads.step ih (by rw [Mode.step, hexVal_some.2 hd])

theorem reads_zeros : ∀ (w : List Nat), (∀ d ∈ w, d = 48) → ∀ (u : List Nat), Reads u (.frac i) → Reads (u ++ w) (.frac i) := by
  intro w
  induction w with
  | nil => intro _ u h; rwa [List.append_nil]
  | cons d w ih =>
    intro hd u h
    cases hd d (by simp)
    have := ih (fun e he => hd e (List.mem_cons_of_mem _ he)) _ (h.step (c := 48) rfl)
    rwa [List.append_assoc] at this

theorem reads_str : ∀ (v : List Nat), (∀ d ∈ v, Plain d) → ∀ (u : List Nat) (cs : List Nat), Reads u (.str cs) → Reads (u ++ v) (.str (v.reverse ++ cs)) := by
  intro v
  induction v with
  | nil => intro _ u cs h; rwa [List.append_nil]
  | cons d v ih =>
    intro hd u cs h
    obtain ⟨h1, h2, h3⟩ := hd d (by simp)
    have := ih (fun e he => hd e (List.mem_cons_of_mem _ he)) _ _ (h.step (c := d) (m' := .str (d :: cs)) (by
      rw [Mode.step, nbeq_false.2 h1, cond_false, nbeq_false.2 h2, nble_false.2 h3]; rfl))
    rw [List.append_assoc] at this
    rw [List.reverse_cons, List.append_assoc]
    exact this

theorem reads_bytes (h : BytesText z b v) : Reads (98 :: 39 :: v) (cond z (.zeroEscape b.reverse) (.bytes b.reverse)) := by
  induction h with
  | nil => exact (reads_first (c := 98) (by decide)).step rfl
  | char h hp hz ih =>
    rename_i z b u c
    rw [List.reverse_append]
    refine Reads.step ih ?_
    obtain ⟨h1, h2, h3⟩ := hp
    cases z
    · rw [cond_false, Mode.step, nbeq_false.2 h1, cond_false, nbeq_false.2 h2, nble_false.2 h3]; rfl
    · have h4 : (Nat.ble 48 c && Nat.ble c 55) = false := by
        rw [← Bool.not_eq_true, Bool.and_eq_true, nble, nble]
        exact hz rfl
      rw [cond_true, Mode.step, nbeq_false.2 h1, cond_false, nbeq_false.2 h2, nble_false.2 h3, h4]; rfl
  | zero h ih =>
    rename_i z b u
    rw [List.reverse_append]
    have h1 : Reads (98 :: 39 :: u ++ [92]) (.escape b.reverse) := by
      cases z <;> exact Reads.step ih rfl
    have := h1.step (c := 48) (m' := .zeroEscape (0 :: b.reverse)) rfl
    rwa [List.append_assoc] at this

/-- The operator that is read with these characters. -/
def readOp : Mode → List Nat → Option Nat
  | .op d, [] => some d
  | _, [] => none
  | m, c :: cs =>
    match m.step c with
    | some m' => readOp m' cs
    | none => none

theorem reads_op : ∀ (v u : List Nat) (m : Mode) (d : Nat), Reads u m → readOp m v = some d → Reads (u ++ v) (.op d) := by
  intro v
  induction v with
  | nil =>
    intro u m d h hr
    rw [List.append_nil]
    cases m <;> first | (cases hr; exact h) | cases hr
  | cons c v ih =>
    intro u m d h hr
    rw [readOp] at hr
    cases hs : m.step c with
    | none => rw [hs] at hr; cases hr
    | some m' =>
      rw [hs] at hr
      have := ih _ m' d (h.step hs) hr
      rwa [List.append_assoc] at this

/-- Is it read as the operator that it is? -/
def readsAs (u : List Nat) : Bool :=
  match u with
  | [] => false
  | c :: v => !Nat.beq c 32 && readOp (Mode.start c) v == some (code u)

theorem operators_read : ∀ u ∈ operatorTexts, readsAs u = true := by decide

theorem reads_operator : ∀ u ∈ operatorTexts, Reads u (.op (code u)) := by
  intro u h
  have h1 := operators_read u h
  cases u with
  | nil => cases h1
  | cons c v =>
    rw [readsAs, Bool.and_eq_true, Bool.not_eq_true', nbeq_false, beq_iff_eq] at h1
    exact reads_op v [c] _ _ (reads_first h1.1) h1.2

/-- The lexer reads a token, and then goes on as from the beginning. -/
theorem reads_lexeme (h : Lexeme t u) : ∃ m, Reads u m ∧ (∀ ts, m.finish ts = t :: ts) ∧ ∀ c, Stops t c → m.step c = none := by
  cases h with
  | name hc hu =>
    rename_i c u
    have h1 : c ≠ 32 := by unfold Letter at hc; omega
    have h2 := reads_first h1
    rw [start_letter hc] at h2
    have h3 := reads_name u hu [c] (by simpa [code] using h2)
    refine ⟨_, h3, fun _ => rfl, fun d ⟨h4, h5, h6⟩ => ?_⟩
    rw [Mode.step, isLetter_false.2 h4, isDigit_false.2 h5, nbeq_false.2 h6]; rfl
  | int hd =>
    rename_i i
    have after (d : Nat) (h1 : ¬Letter d) (h3 : d ≠ 46) : afterDigits i d = none := by
      have h4 : d ≠ 95 := fun h => h1 (.inr (.inr h))
      rw [afterDigits, nbeq_false.2 h4, nbeq_false.2 h3, isLetter_false.2 h1]; rfl
    rcases reads_digits hd.1 hd.2 with h | ⟨h, rfl⟩
    · refine ⟨_, h, fun _ => rfl, fun d ⟨h1, h2, h3⟩ => ?_⟩
      rw [Mode.step, isDigit_false.2 h2, cond_false, after d h1 h3]
    · refine ⟨_, h, fun _ => rfl, fun d ⟨h1, h2, h3⟩ => ?_⟩
      have h4 : d ≠ 120 := fun h => h1 (by unfold Letter; omega)
      rw [Mode.step, nbeq_false.2 h4, cond_false, isDigit_false.2 h2, cond_false, after d h1 h3]
  | hex hd =>
    refine ⟨_, reads_hex hd, fun _ => rfl, fun d ⟨h1, h2, h3⟩ => ?_⟩
    have h4 : hexVal d = none := by
      cases h5 : hexVal d with
      | none => rfl
      | some e =>
        exfalso
        cases hexVal_some.1 h5 with
        | digit h => exact h2 h
        | upper => exact h1 (by unfold Letter; omega)
        | lower => exact h1 (by unfold Letter; omega)
    rw [Mode.step, h4]
    simp only [isLetter_false.2 h1, nbeq_false.2 h3]; rfl
  | float hd hw hb =>
    rename_i i v w bits
    have h1 : Reads (v ++ [46]) (.frac i) := by
      rcases reads_digits hd.1 hd.2 with h | ⟨h, rfl⟩
      · exact h.step rfl
      · exact h.step rfl
    have h2 := reads_zeros w hw _ h1
    rw [List.append_assoc] at h2
    refine ⟨_, h2, fun _ => by cases hb <;> rfl, fun d ⟨h1, h2⟩ => ?_⟩
    have h3 : d ≠ 48 := fun h => h2 (by unfold Digit; omega)
    rw [Mode.step, nbeq_false.2 h3, isDigit_false.2 h2, isLetter_false.2 h1]; rfl
  | str hu =>
    rename_i u
    have h1 := reads_str u hu [39] [] (reads_first (c := 39) (by decide))
    have h2 := h1.step (c := 39) (m' := .full (.str u)) (by rw [Mode.step, List.append_nil, List.reverse_reverse]; rfl)
    refine ⟨_, h2, fun _ => rfl, fun d h => ?_⟩
    rw [Mode.step, nbeq_false.2 h]; rfl
  | bytes hb =>
    rename_i z b u
    have h2 : Reads (98 :: 39 :: u ++ [39]) (.full (.bytes b)) := by
      refine Reads.step (reads_bytes hb) ?_
      cases z <;> rw [← List.reverse_reverse b] <;> simp [Mode.step]
    refine ⟨_, h2, fun _ => rfl, fun d h => ?_⟩
    rw [Mode.step, nbeq_false.2 h]; rfl
  | operator hu =>
    refine ⟨_, reads_operator _ hu, fun _ => ?_, fun d ⟨h1, h2⟩ => ?_⟩
    · rw [Mode.finish, isOperator_iff.2 ((operators_texts _).2 ⟨_, hu, rfl⟩), cond_true]
    · rw [Mode.step, nbeq_false.2 h1, cond_false]
      have h3 : (Nat.ble d 127 && isOperator (code u * 256 + d) operators) = false := by
        cases h4 : Nat.ble d 127
        · rfl
        · rw [Bool.true_and, isOperator_false, ← code_snoc]
          intro h5
          exact h2 u hu rfl (operator_text (.inl hu) (nble.1 h4) h5)
      rw [h3]; rfl

/-- The tokens of the grammar are those that the lexer returns. -/
theorem tokens_lex (h : Tokens cs ts) : lex .blank cs = ts := by
  induction h with
  | nil => rfl
  | blank h ih => rw [lex_new (m := .blank) rfl]; exact ih
  | comment => rw [lex_new (m := .blank) rfl]; exact comment_rest _
  | token h hs _ ih =>
    rename_i t u cs ts _
    obtain ⟨m, h1, h2, h3⟩ := reads_lexeme h
    rw [h1]
    cases cs with
    | nil =>
      cases ih
      rw [lex, h2]
      rfl
    | cons c cs =>
      rw [lex_new (h3 c (hs c cs rfl)), h2]
      rw [lex_new (m := .blank) rfl] at ih
      rw [← ih]
      rfl

theorem tokens_not_bad (h : Tokens cs ts) : Tok.bad ∉ ts := by
  induction h with
  | nil => simp
  | blank _ ih => exact ih
  | comment => simp
  | token h _ _ ih =>
    intro hb
    rcases List.mem_cons.1 hb with rfl | hb
    · cases h
    · exact ih hb

end Genie.Src.Text
