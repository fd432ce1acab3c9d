import Verif.Spec.Rfc8259
import Verif.Proof.Json
/-!
# The encoder's output and the grammar of RFC 8259

Helper lemmas for C41.
-/

namespace Genie.Json
open PyTree Rfc8259

/-! ## the output is in the grammar -/

theorem hex_hexDigit {n : Nat} (h : n < 16) : Hex (hexDigit n) n := by
  unfold hexDigit Hex
  split
  · omega
  · omega

theorem chars_uEscape {n : Nat} (hn : n < 65536) {s : PyStr} {u : List Nat} (h : Chars s u) : Chars (uEscape n ++ s) (n :: u) := by
  have := Chars.unicode (hex_hexDigit (Nat.mod_lt (n / 4096) (by decide : 0 < 16))) (hex_hexDigit (Nat.mod_lt (n / 256) (by decide : 0 < 16)))
    (hex_hexDigit (Nat.mod_lt (n / 16) (by decide : 0 < 16))) (hex_hexDigit (Nat.mod_lt n (by decide : 0 < 16))) h
  have e : (((n / 4096 % 16) * 16 + n / 256 % 16) * 16 + n / 16 % 16) * 16 + n % 16 = n := by omega
  rw [e] at this
  exact this

theorem chars_escapeChar {c : Nat} (hc : c < 0x110000) {s : PyStr} {u : List Nat} (h : Chars s u) : Chars (escapeChar c ++ s) (utf16 c ++ u) := by
  have small : ∀ {e c : Nat}, (e, c) ∈ shortEscapes → Chars ([92, e] ++ s) (utf16 c ++ u) := by
    intro e c he
    have : utf16 c = [c] := by
      have : ∀ p ∈ shortEscapes, p.2 < 0x10000 := by decide
      unfold utf16; rw [if_pos (this _ he)]
    rw [this]
    exact Chars.short he h
  unfold escapeChar
  split
  · rename_i e; subst e; exact small (by decide)
  split
  · rename_i e; subst e; exact small (by decide)
  split
  · rename_i e; subst e; exact small (by decide)
  split
  · rename_i e; subst e; exact small (by decide)
  split
  · rename_i e; subst e; exact small (by decide)
  split
  · rename_i e; subst e; exact small (by decide)
  split
  · rename_i e; subst e; exact small (by decide)
  split
  · exact Chars.unescaped (by omega) (by omega) (by omega) (by omega) h
  split
  · rename_i h1
    unfold utf16; rw [if_pos h1]
    exact chars_uEscape h1 h
  · rename_i h1
    unfold utf16; rw [if_neg h1, List.append_assoc]
    have e1 : 0xD800 + (c - 0x10000) / 1024 % 1024 = 0xD800 + (c - 0x10000) / 0x400 := by omega
    rw [e1]
    exact chars_uEscape (by omega) (chars_uEscape (by omega) h)

theorem str_encodeStr {s : PyStr} (hs : Text s) : Str (encodeStr s) (unitsOf s) := by
  refine ⟨s.flatMap escapeChar, rfl, ?_⟩
  induction s with
  | nil => exact Chars.nil
  | cons c s ih =>
    rw [List.flatMap_cons]
    unfold unitsOf
    rw [List.flatMap_cons]
    refine chars_escapeChar ?_ (ih fun x hx => hs x (List.mem_cons_of_mem _ hx))
    have := hs c List.mem_cons_self
    simp only [isScalar, Bool.or_eq_true, Bool.and_eq_true, decide_eq_true_eq] at this
    omega

theorem intPart_natRepr (n : Nat) : IntPart (natRepr n) := by
  induction n using Nat.strongRecOn with
  | _ n ih =>
    rw [natRepr]
    split
    · by_cases h0 : n = 0
      · subst h0; exact .inl rfl
      · exact .inr ⟨48 + n, [], rfl, by omega, by omega, by simp⟩
    · rename_i h
      have hd : Digit (48 + n % 10) := ⟨by omega, by omega⟩
      rcases ih (n / 10) (by omega) with h1 | ⟨c, cs, h1, h2, h3, h4⟩
      · exfalso
        have h5 := natVal_natRepr (n / 10)
        rw [h1] at h5
        have h6 : natVal [0x30] = 0 := by decide
        omega
      · refine .inr ⟨c, cs ++ [48 + n % 10], by rw [h1]; rfl, h2, h3, fun d hd' => ?_⟩
        rw [List.mem_append, List.mem_singleton] at hd'
        rcases hd' with hd' | rfl
        · exact h4 d hd'
        · exact hd

theorem decimal_natRepr (n : Nat) : decimal (natRepr n) = n := by
  induction n using Nat.strongRecOn with
  | _ n ih =>
    rw [natRepr]
    split
    · simp [decimal]
    · have h1 := ih (n / 10) (by omega)
      unfold decimal at h1 ⊢
      rw [List.foldl_append, h1]
      simp only [List.foldl_cons, List.foldl_nil]
      omega

theorem intLiteral_intRepr (i : Int) : IntLiteral (intRepr i) i := by
  refine ⟨natRepr i.natAbs, intPart_natRepr _, ?_⟩
  rw [decimal_natRepr]
  unfold intRepr
  split
  · exact .inr ⟨rfl, by omega⟩
  · exact .inl ⟨rfl, by omega⟩

theorem ws_newline (l : Nat) : Ws (newlineIndent l) := by
  intro c hc
  simp only [newlineIndent, List.mem_cons, List.mem_replicate] at hc
  omega

theorem ws_nil : Ws [] := fun _ h => (by cases h)

theorem floatStr_finite {repr : FloatRepr} {x : PyFloat} (h : F.isFinite x = true) : floatStr repr x = repr x := by
  simp only [F.isFinite, bne_iff_ne, ne_eq] at h
  have h1 : F.isNaN x = false := by simp [F.isNaN, h]
  have h2 : F.isInf x = false := by simp [F.isInf, h]
  unfold floatStr
  simp [h1, h2]

mutual
theorem value_encode {repr : FloatRepr} {floatOf : PyStr → PyFloat} (hr : repr.ReadBy floatOf) (l : Nat) :
    (t : PyTree) → t.Texts → t.Finite → Value floatOf (encode repr l t) t.json
  | .none, _, _ => by simp only [encode, json]; exact Value.null
  | .int i, _, _ => by simp only [encode, json]; exact Value.int (intLiteral_intRepr i)
  | .float x, _, hf => by
    simp only [Finite] at hf
    simp only [encode, json, floatStr_finite hf]
    have := Value.float (floatOf := floatOf) (hr.literal x hf)
    rw [hr.inverse x hf] at this
    exact this
  | .str s, ht, _ => by
    simp only [Texts] at ht
    simp only [encode, json]; exact Value.str (str_encodeStr ht)
  | .list [], _, _ => by simp only [encode, json, jsonAll]; exact Value.emptyArr (w := []) ws_nil
  | .list (t :: ts), ht, hf => by
    simp only [Texts, TextsAll] at ht
    simp only [Finite, FiniteAll] at hf
    simp only [encode, json, jsonAll]
    obtain ⟨r, h1, h2⟩ := elements_encode hr l ts ht.2 hf.2 _ _ (ws_newline (l + 1)) (value_encode hr (l + 1) t ht.1 hf.1)
    rw [h1]
    exact Value.arr h2
  | .dict [], _, _ => by simp only [encode, json, jsonItems]; exact Value.emptyObj (w := []) ws_nil
  | .dict ((k, t) :: ts), ht, hf => by
    simp only [Texts, TextsItems] at ht
    simp only [Finite, FiniteItems] at hf
    simp only [encode, json, jsonItems]
    obtain ⟨r, h1, h2⟩ := members_encode hr l ts ht.2.2 hf.2 _ _ (ws_newline (l + 1)) k ht.1 (value_encode hr (l + 1) t ht.2.1 hf.1)
    rw [h1]
    exact Value.obj h2
theorem elements_encode {repr : FloatRepr} {floatOf : PyStr → PyFloat} (hr : repr.ReadBy floatOf) (l : Nat) :
    (ts : List PyTree) → TextsAll ts → FiniteAll ts → {t : Rfc8259.Tree} → (w s : PyStr) → Ws w → Value floatOf s t →
      ∃ r, w ++ (s ++ encodeElems repr l ts) = r ++ lit "]" ∧ Elements floatOf r (t :: jsonAll ts)
  | [], _, _, t, w, s, hw, h => ⟨w ++ (s ++ newlineIndent l), by simp only [encodeElems, List.append_assoc], by
      simp only [jsonAll]; exact Elements.one hw h (ws_newline l)⟩
  | t' :: ts, ht, hf, t, w, s, hw, h => by
    simp only [TextsAll] at ht
    simp only [FiniteAll] at hf
    obtain ⟨r, h1, h2⟩ := elements_encode hr l ts ht.2 hf.2 _ _ (ws_newline (l + 1)) (value_encode hr (l + 1) t' ht.1 hf.1)
    refine ⟨w ++ (s ++ ([] ++ (lit "," ++ r))), ?_, ?_⟩
    · simp only [encodeElems, h1, List.append_assoc, List.nil_append]
    · simp only [jsonAll]; exact Elements.more hw h ws_nil h2
theorem members_encode {repr : FloatRepr} {floatOf : PyStr → PyFloat} (hr : repr.ReadBy floatOf) (l : Nat) :
    (ts : List (PyStr × PyTree)) → TextsItems ts → FiniteItems ts → {t : Rfc8259.Tree} → (w s : PyStr) → Ws w → (k : PyStr) → Text k →
      Value floatOf s t →
      ∃ r, w ++ (encodeStr k ++ (lit ": " ++ (s ++ encodeItems repr l ts))) = r ++ lit "}" ∧ Members floatOf r ((unitsOf k, t) :: jsonItems ts)
  | [], _, _, t, w, s, hw, k, hk, h => ⟨w ++ (encodeStr k ++ ([] ++ (lit ":" ++ (lit " " ++ (s ++ newlineIndent l))))), by
      simp only [encodeItems, List.append_assoc]; rfl, by
      simp only [jsonItems]; exact Members.one hw (str_encodeStr hk) ws_nil (by unfold Ws; decide) h (ws_newline l)⟩
  | (k', t') :: ts, ht, hf, t, w, s, hw, k, hk, h => by
    simp only [TextsItems] at ht
    simp only [FiniteItems] at hf
    obtain ⟨r, h1, h2⟩ := members_encode hr l ts ht.2.2 hf.2 _ _ (ws_newline (l + 1)) k' ht.1 (value_encode hr (l + 1) t' ht.2.1 hf.1)
    refine ⟨w ++ (encodeStr k ++ ([] ++ (lit ":" ++ (lit " " ++ (s ++ ([] ++ (lit "," ++ r))))))), ?_, ?_⟩
    · simp only [encodeItems, h1, List.append_assoc, List.nil_append]; rfl
    · simp only [jsonItems]; exact Members.more hw (str_encodeStr hk) ws_nil (by unfold Ws; decide) h ws_nil h2
end

/-! ## `NaN` and `Infinity` are not -/

/-- Position while scanning a text: outside and inside of strings, after a backslash, or `N` or `I` was seen outside of a string. -/
inductive Scan where | out | ins | esc | bad
deriving DecidableEq

/-- One character. -/
def Scan.step : Scan → Nat → Scan
  | .out, c => if c = 34 then .ins else if c = 78 ∨ c = 73 then .bad else .out
  | .ins, c => if c = 34 then .out else if c = 92 then .esc else .ins
  | .esc, _ => .ins
  | .bad, _ => .bad

/-- A text. -/
def Scan.run (st : Scan) (s : PyStr) : Scan := s.foldl Scan.step st

theorem Scan.run_append (st : Scan) (a b : PyStr) : st.run (a ++ b) = (st.run a).run b := List.foldl_append

/-- Characters that do not matter outside of strings. -/
theorem Scan.run_plain {s : PyStr} (h : ∀ c ∈ s, c ≠ 34 ∧ c ≠ 78 ∧ c ≠ 73) : Scan.out.run s = .out := by
  induction s with
  | nil => rfl
  | cons c s ih =>
    have := h c List.mem_cons_self
    unfold Scan.run
    rw [List.foldl_cons]
    have e : Scan.out.step c = .out := by simp [Scan.step, this]
    rw [e]
    exact ih fun x hx => h x (List.mem_cons_of_mem _ hx)

theorem Scan.run_bad (s : PyStr) : Scan.bad.run s = .bad := by
  induction s with
  | nil => rfl
  | cons c s ih => exact ih

theorem Scan.ws {s : PyStr} (h : Ws s) : Scan.out.run s = .out := Scan.run_plain fun c hc => by have := h c hc; omega

theorem Scan.chars {s : PyStr} {u : List Nat} (h : Chars s u) : Scan.ins.run s = .ins := by
  induction h with
  | nil => rfl
  | unescaped h1 h2 h3 h4 _ ih =>
    unfold Scan.run
    rw [List.foldl_cons]
    have e : ∀ c : Nat, c ≠ 0x22 → c ≠ 0x5C → Scan.ins.step c = .ins := fun c a b => by simp [Scan.step, a, b]
    rw [e _ h3 h4]
    exact ih
  | short he _ ih => exact ih
  | unicode ha hb hc hd _ ih =>
    have key : ∀ {c n : Nat}, Hex c n → Scan.ins.step c = .ins := by
      intro c n h
      have h1 : c ≠ 34 := by unfold Hex at h; omega
      have h2 : c ≠ 92 := by unfold Hex at h; omega
      simp [Scan.step, h1, h2]
    unfold Scan.run
    simp only [List.foldl_cons]
    have e1 : Scan.ins.step 0x5C = .esc := rfl
    have e2 : Scan.esc.step 0x75 = .ins := rfl
    rw [e1, e2, key ha, key hb, key hc, key hd]
    exact ih

theorem Scan.str {s : PyStr} {u : List Nat} (h : Str s u) : Scan.out.run s = .out := by
  obtain ⟨b, rfl, h⟩ := h
  have e : (34 :: (b ++ [34]) : PyStr) = [34] ++ (b ++ [34]) := rfl
  show Scan.out.run (34 :: (b ++ [34])) = _
  rw [e, Scan.run_append, Scan.run_append]
  have : Scan.out.run [34] = .ins := rfl
  rw [this, Scan.chars h]
  rfl

theorem digit_plain {c : Nat} (h : Digit c) : c ≠ 34 ∧ c ≠ 78 ∧ c ≠ 73 := by unfold Digit at h; omega

theorem intPart_plain {s : PyStr} (h : IntPart s) : ∀ c ∈ s, c ≠ 34 ∧ c ≠ 78 ∧ c ≠ 73 := by
  rcases h with rfl | ⟨c, cs, rfl, h1, h2, h3⟩
  · decide
  · intro x hx
    rcases List.mem_cons.1 hx with rfl | hx
    · omega
    · exact digit_plain (h3 x hx)

theorem Scan.intLiteral {s : PyStr} {i : Int} (h : IntLiteral s i) : Scan.out.run s = .out := by
  obtain ⟨ds, h1, h2⟩ := h
  refine Scan.run_plain ?_
  rcases h2 with ⟨rfl, -⟩ | ⟨rfl, -⟩
  · exact intPart_plain h1
  · intro x hx
    rcases List.mem_cons.1 hx with rfl | hx
    · decide
    · exact intPart_plain h1 x hx

theorem Scan.floatLiteral {s : PyStr} (h : FloatLiteral s) : Scan.out.run s = .out := by
  obtain ⟨m, i, f, e, rfl, hm, hi, hf, he, -⟩ := h
  refine Scan.run_plain fun c hc => ?_
  simp only [List.mem_append] at hc
  rcases hc with hc | hc | hc | hc
  · rcases hm with rfl | rfl
    · cases hc
    · simp at hc; omega
  · exact intPart_plain hi c hc
  · rcases hf with rfl | ⟨ds, rfl, h⟩
    · cases hc
    · rcases List.mem_cons.1 hc with rfl | hc
      · decide
      · exact digit_plain (h.2 c hc)
  · rcases he with rfl | ⟨x, sign, ds, rfl, h1, h2, h3⟩
    · cases hc
    · simp only [List.mem_cons, List.mem_append] at hc
      rcases hc with rfl | hc | hc
      · omega
      · rcases h2 with rfl | rfl | rfl
        · cases hc
        · simp at hc; omega
        · simp at hc; omega
      · exact digit_plain (h3.2 c hc)

mutual
theorem Scan.value {floatOf : PyStr → PyFloat} : {s : PyStr} → {t : Rfc8259.Tree} → Value floatOf s t → Scan.out.run s = .out
  | _, _, .null => rfl
  | _, _, .true => rfl
  | _, _, .false => rfl
  | _, _, .int h => Scan.intLiteral h
  | _, _, .float h => Scan.floatLiteral h
  | _, _, .str h => Scan.str h
  | _, _, .emptyArr h => by
    rw [Scan.run_append, Scan.run_append, show Scan.out.run (lit "[") = .out from rfl, Scan.ws h]; rfl
  | _, _, .arr h => by
    rw [Scan.run_append, Scan.run_append, show Scan.out.run (lit "[") = .out from rfl, Scan.elements h]; rfl
  | _, _, .emptyObj h => by
    rw [Scan.run_append, Scan.run_append, show Scan.out.run (lit "{") = .out from rfl, Scan.ws h]; rfl
  | _, _, .obj h => by
    rw [Scan.run_append, Scan.run_append, show Scan.out.run (lit "{") = .out from rfl, Scan.members h]; rfl
theorem Scan.elements {floatOf : PyStr → PyFloat} : {s : PyStr} → {l : List Rfc8259.Tree} → Elements floatOf s l → Scan.out.run s = .out
  | _, _, .one hw h hw' => by rw [Scan.run_append, Scan.run_append, Scan.ws hw, Scan.value h, Scan.ws hw']
  | _, _, .more hw h hw' hr => by
    rw [Scan.run_append, Scan.run_append, Scan.run_append, Scan.run_append, Scan.ws hw, Scan.value h, Scan.ws hw',
      show Scan.out.run (lit ",") = .out from rfl, Scan.elements hr]
theorem Scan.members {floatOf : PyStr → PyFloat} : {s : PyStr} → {l : List (List Nat × Rfc8259.Tree)} → Members floatOf s l →
    Scan.out.run s = .out
  | _, _, .one hw hk h1 h2 h hw' => by
    simp only [Scan.run_append]
    rw [Scan.ws hw, Scan.str hk, Scan.ws h1, show Scan.out.run (lit ":") = .out from rfl, Scan.ws h2, Scan.value h, Scan.ws hw']
  | _, _, .more hw hk h1 h2 h hw' hr => by
    simp only [Scan.run_append]
    rw [Scan.ws hw, Scan.str hk, Scan.ws h1, show Scan.out.run (lit ":") = .out from rfl, Scan.ws h2, Scan.value h, Scan.ws hw',
      show Scan.out.run (lit ",") = .out from rfl, Scan.members hr]
end

theorem Scan.escapeChar (c : Nat) : Scan.ins.run (escapeChar c) = .ins := by
  have hex : ∀ n, n < 16 → hexDigit n ≠ 34 ∧ hexDigit n ≠ 92 := by intro n h; unfold hexDigit; split <;> omega
  have u : ∀ n, Scan.ins.run (uEscape n) = .ins := by
    intro n
    unfold Scan.run uEscape
    simp only [List.foldl_cons, List.foldl_nil]
    have e1 : Scan.ins.step 92 = .esc := rfl
    have e2 : Scan.esc.step 117 = .ins := rfl
    have e3 : ∀ m, Scan.ins.step (hexDigit (m % 16)) = .ins := by
      intro m
      have := hex _ (Nat.mod_lt m (by decide : 0 < 16))
      simp [Scan.step, this]
    rw [e1, e2, e3, e3, e3, e3]
  unfold Json.escapeChar
  split
  · rfl
  split
  · rfl
  split
  · rfl
  split
  · rfl
  split
  · rfl
  split
  · rfl
  split
  · rfl
  split
  · simp [Scan.run, Scan.step, *]
  split
  · exact u _
  · rw [Scan.run_append, u, u]

theorem Scan.encodeStr (s : PyStr) : Scan.out.run (encodeStr s) = .out := by
  have key : Scan.ins.run (s.flatMap Json.escapeChar) = .ins := by
    induction s with
    | nil => rfl
    | cons c s ih => rw [List.flatMap_cons, Scan.run_append, Scan.escapeChar, ih]
  unfold Json.encodeStr
  have e : (34 :: (s.flatMap Json.escapeChar ++ [34]) : PyStr) = [34] ++ (s.flatMap Json.escapeChar ++ [34]) := rfl
  rw [e, Scan.run_append, Scan.run_append, show Scan.out.run [34] = .ins from rfl, key]
  rfl

/-- The scan of a part with (`p`) or without floats that are not finite. -/
def Scan.Tells (s : PyStr) (p : Prop) : Prop := (p ∧ Scan.out.run s = .out) ∨ (¬ p ∧ Scan.out.run s = .bad)

theorem Scan.Tells.append {a b : PyStr} {p q : Prop} (h1 : Scan.Tells a p) (h2 : Scan.Tells b q) : Scan.Tells (a ++ b) (p ∧ q) := by
  unfold Scan.Tells at *
  rw [Scan.run_append]
  rcases h1 with ⟨h1, e1⟩ | ⟨h1, e1⟩
  · rw [e1]
    rcases h2 with ⟨h2, e2⟩ | ⟨h2, e2⟩
    · exact .inl ⟨⟨h1, h2⟩, e2⟩
    · exact .inr ⟨fun h => h2 h.2, e2⟩
  · rw [e1, Scan.run_bad]
    exact .inr ⟨fun h => h1 h.1, rfl⟩

theorem Scan.Tells.plain {a b : PyStr} {p : Prop} (h1 : Scan.out.run a = .out) (h2 : Scan.Tells b p) : Scan.Tells (a ++ b) p := by
  unfold Scan.Tells at *
  rw [Scan.run_append, h1]
  exact h2

theorem Scan.Tells.of_out {a : PyStr} {p : Prop} (h : Scan.out.run a = .out) (hp : p) : Scan.Tells a p := .inl ⟨hp, h⟩

theorem Scan.floatStr {repr : FloatRepr} (hr : repr.Lawful) (x : PyFloat) : Scan.Tells (floatStr repr x) (F.isFinite x = true) := by
  cases hf : F.isFinite x with
  | true =>
    refine .inl ⟨rfl, ?_⟩
    rw [floatStr_finite hf]
    refine Scan.run_plain fun c hc => ?_
    have := hr.chars x hf c hc
    simp only [isDigit, Bool.and_eq_true, decide_eq_true_eq] at this
    omega
  | false =>
    refine .inr ⟨by simp, ?_⟩
    rcases floatStr_cases (repr := repr) x with h | h | h | h
    · rw [h.2]; rfl
    · rw [h.2.2.2]; rfl
    · rw [h.2.2.2]; rfl
    · rw [hf] at h; simp at h

theorem Scan.int (i : Int) : Scan.out.run (intRepr i) = .out := Scan.intLiteral (intLiteral_intRepr i)

mutual
theorem Scan.encode {repr : FloatRepr} (hr : repr.Lawful) (l : Nat) : (t : PyTree) → Scan.Tells (encode repr l t) t.Finite
  | .none => .of_out rfl (by simp only [Finite])
  | .int i => .of_out (Scan.int i) (by simp only [Finite])
  | .float x => by simp only [Json.encode, Finite]; exact Scan.floatStr hr x
  | .str s => .of_out (Scan.encodeStr s) (by simp only [Finite])
  | .list [] => .of_out rfl (by simp only [Finite, FiniteAll])
  | .list (t :: ts) => by
    simp only [Json.encode, Finite, FiniteAll]
    exact .plain rfl (.plain (Scan.ws (ws_newline _)) ((Scan.encode hr _ t).append (Scan.encodeElems hr _ ts)))
  | .dict [] => .of_out rfl (by simp only [Finite, FiniteItems])
  | .dict ((k, t) :: ts) => by
    simp only [Json.encode, Finite, FiniteItems]
    exact .plain rfl (.plain (Scan.ws (ws_newline _)) (.plain (Scan.encodeStr k) (.plain rfl
      ((Scan.encode hr _ t).append (Scan.encodeItems hr _ ts)))))
theorem Scan.encodeElems {repr : FloatRepr} (hr : repr.Lawful) (l : Nat) : (ts : List PyTree) →
    Scan.Tells (encodeElems repr l ts) (FiniteAll ts)
  | [] => by
    simp only [Json.encodeElems, FiniteAll]
    exact .plain (Scan.ws (ws_newline _)) (.of_out rfl True.intro)
  | t :: ts => by
    simp only [Json.encodeElems, FiniteAll]
    exact .plain rfl (.plain (Scan.ws (ws_newline _)) ((Scan.encode hr _ t).append (Scan.encodeElems hr _ ts)))
theorem Scan.encodeItems {repr : FloatRepr} (hr : repr.Lawful) (l : Nat) : (ts : List (PyStr × PyTree)) →
    Scan.Tells (encodeItems repr l ts) (FiniteItems ts)
  | [] => by
    simp only [Json.encodeItems, FiniteItems]
    exact .plain (Scan.ws (ws_newline _)) (.of_out rfl True.intro)
  | (k, t) :: ts => by
    simp only [Json.encodeItems, FiniteItems]
    exact .plain rfl (.plain (Scan.ws (ws_newline _)) (.plain (Scan.encodeStr k) (.plain rfl
      ((Scan.encode hr _ t).append (Scan.encodeItems hr _ ts)))))
end

/-! ## checking that a concrete tree has finite floats only -/

mutual
/-- `Finite`, computed. -/
def finiteB : PyTree → Bool
  | .float x => F.isFinite x
  | .list l => finiteAllB l
  | .dict kvs => finiteItemsB kvs
  | _ => true
def finiteAllB : List PyTree → Bool
  | [] => true
  | t :: ts => finiteB t && finiteAllB ts
def finiteItemsB : List (PyStr × PyTree) → Bool
  | [] => true
  | (_, t) :: ts => finiteB t && finiteItemsB ts
end

mutual
theorem finiteB_iff : (t : PyTree) → (finiteB t = true ↔ t.Finite)
  | .none => by simp [finiteB, Finite]
  | .int _ => by simp [finiteB, Finite]
  | .float x => by simp [finiteB, Finite]
  | .str _ => by simp [finiteB, Finite]
  | .list l => by simp only [finiteB, Finite]; exact finiteAllB_iff l
  | .dict l => by simp only [finiteB, Finite]; exact finiteItemsB_iff l
theorem finiteAllB_iff : (l : List PyTree) → (finiteAllB l = true ↔ FiniteAll l)
  | [] => by simp [finiteAllB, FiniteAll]
  | t :: ts => by simp only [finiteAllB, FiniteAll, Bool.and_eq_true, finiteB_iff t, finiteAllB_iff ts]
theorem finiteItemsB_iff : (l : List (PyStr × PyTree)) → (finiteItemsB l = true ↔ FiniteItems l)
  | [] => by simp [finiteItemsB, FiniteItems]
  | (_, t) :: ts => by simp only [finiteItemsB, FiniteItems, Bool.and_eq_true, finiteB_iff t, finiteItemsB_iff ts]
end

end Genie.Json
