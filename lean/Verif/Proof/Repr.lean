import Verif.Spec.Repr
import Verif.Proof.Json
/-!
# The text of a value determines it
-/

namespace Genie
namespace PyRepr

open Json
open PyTree (theNaN)

/-! ## strings -/

/-- The value of hexadecimal digits. -/
def hexValue (s : PyStr) : Nat := s.foldl (fun a c => 16 * a + hexVal c) 0

theorem hexN_length : ∀ (k n : Nat), (hexN k n).length = k
  | 0, _ => rfl
  | k + 1, n => by simp [hexN, hexN_length k]

theorem hexValue_hexN : ∀ (k n : Nat), n < 16 ^ k → hexValue (hexN k n) = n
  | 0, n, h => by
    have : n = 0 := by simpa using h
    subst this; rfl
  | k + 1, n, h => by
    have ih := hexValue_hexN k (n / 16) (by rw [Nat.pow_succ] at h; omega)
    unfold hexValue at ih ⊢
    rw [hexN, List.foldl_append, ih]
    simp only [List.foldl_cons, List.foldl_nil]
    rw [hexVal_hexDigit (by omega)]
    omega

/-- The first character of the inside of a string literal, and what follows. -/
def unescape : PyStr → Option (Nat × PyStr)
  | [] => Option.none
  | c :: r =>
    if c = 92 then
      match r with
      | [] => Option.none
      | k :: r =>
        if k = 120 then some (hexValue (r.take 2), r.drop 2)
        else if k = 117 then some (hexValue (r.take 4), r.drop 4)
        else if k = 85 then some (hexValue (r.take 8), r.drop 8)
        else if k = 116 then some (9, r)
        else if k = 110 then some (10, r)
        else if k = 114 then some (13, r)
        else some (k, r)
    else some (c, r)

theorem unescape_escape {printable : Nat → Bool} {q c : Nat} (hq : q = 39 ∨ q = 34) (hc : c < 0x110000) (r : PyStr) :
    unescape (escape printable q c ++ r) = some (c, r) := by
  have t : ∀ (k n : Nat), n < 16 ^ k → hexValue ((hexN k n ++ r).take k) = n ∧ (hexN k n ++ r).drop k = r := by
    intro k n h
    rw [List.take_append_of_le_length (by rw [hexN_length]; exact Nat.le_refl _), List.drop_append_of_le_length (by rw [hexN_length]; exact Nat.le_refl _),
      List.take_of_length_le (by rw [hexN_length]; exact Nat.le_refl _), List.drop_of_length_le (by rw [hexN_length]; exact Nat.le_refl _)]
    exact ⟨hexValue_hexN k n h, rfl⟩
  unfold escape
  by_cases h1 : c = q ∨ c = 92
  · rw [if_pos h1]
    have : c ≠ 120 ∧ c ≠ 117 ∧ c ≠ 85 ∧ c ≠ 116 ∧ c ≠ 110 ∧ c ≠ 114 := by omega
    simp [unescape, this]
  · rw [if_neg h1]
    have h92 : c ≠ 92 := fun h => h1 (.inr h)
    split
    · subst_vars; simp [unescape]
    · split
      · subst_vars; simp [unescape]
      · split
        · subst_vars; simp [unescape]
        · split
          · obtain ⟨t1, t2⟩ := t 2 c (by omega)
            simp only [List.cons_append, unescape, if_true, t1, t2]
          · split
            · simp [unescape, h92]
            · split
              · simp [unescape, h92]
              · split
                · obtain ⟨t1, t2⟩ := t 2 c (by omega)
                  simp only [List.cons_append, unescape, if_true, t1, t2]
                · split
                  · obtain ⟨t1, t2⟩ := t 4 c (by omega)
                    simp [unescape, t1, t2]
                  · obtain ⟨t1, t2⟩ := t 8 c (by omega)
                    simp [unescape, t1, t2]

theorem escape_ne_quote {printable : Nat → Bool} {q c : Nat} (hq : q = 39 ∨ q = 34) : ∃ d ds, escape printable q c = d :: ds ∧ d ≠ q := by
  have h92 : (92 : Nat) ≠ q := by omega
  unfold escape
  by_cases h1 : c = q ∨ c = 92
  · rw [if_pos h1]; exact ⟨_, _, rfl, h92⟩
  · rw [if_neg h1]
    have hc : c ≠ q := fun h => h1 (.inl h)
    repeat' split
    all_goals first | exact ⟨_, _, rfl, h92⟩ | exact ⟨_, _, rfl, hc⟩

theorem escapes_inj {printable : Nat → Bool} {q : Nat} (hq : q = 39 ∨ q = 34) {r r' : PyStr} : ∀ {s s' : PyStr}, (∀ c ∈ s, c < 0x110000) → (∀ c ∈ s', c < 0x110000) →
    s.flatMap (escape printable q) ++ q :: r = s'.flatMap (escape printable q) ++ q :: r' → s = s' ∧ r = r'
  | [], [], _, _, h => by simp at h; exact ⟨rfl, h⟩
  | [], c :: s', _, _, h => by
    obtain ⟨d, ds, e, ne⟩ := escape_ne_quote (printable := printable) (c := c) hq
    simp only [List.flatMap_nil, List.flatMap_cons, e, List.nil_append, List.cons_append, List.cons.injEq] at h
    exact absurd h.1.symm ne
  | c :: s, [], _, _, h => by
    obtain ⟨d, ds, e, ne⟩ := escape_ne_quote (printable := printable) (c := c) hq
    simp only [List.flatMap_nil, List.flatMap_cons, e, List.nil_append, List.cons_append, List.cons.injEq] at h
    exact absurd h.1 ne
  | c :: s, c' :: s', hs, hs', h => by
    simp only [List.flatMap_cons, List.append_assoc] at h
    have e := congrArg unescape h
    rw [unescape_escape hq (hs c (by simp)), unescape_escape hq (hs' c' (by simp))] at e
    obtain ⟨e1, e2⟩ := Prod.mk.inj (Option.some.inj e)
    subst e1
    obtain ⟨e3, e4⟩ := escapes_inj hq (fun x hx => hs x (by simp [hx])) (fun x hx => hs' x (by simp [hx])) e2
    exact ⟨by rw [e3], e4⟩

theorem quote_cases (s : PyStr) : quote s = 39 ∨ quote s = 34 := by unfold quote; split <;> simp

theorem strRepr_inj {printable : Nat → Bool} {s s' r r' : PyStr} (hs : ∀ c ∈ s, c < 0x110000) (hs' : ∀ c ∈ s', c < 0x110000)
    (h : strRepr printable s ++ r = strRepr printable s' ++ r') : s = s' ∧ r = r' := by
  unfold strRepr at h
  simp only [List.cons_append, List.append_assoc, List.cons.injEq, List.nil_append] at h
  obtain ⟨e, h⟩ := h
  rw [← e] at h
  exact escapes_inj (quote_cases s) hs hs' h

/-! ## numbers -/

theorem floatRepr_cases {digits : FloatRepr} (x : PyFloat) :
    (F.isNaN x = true ∧ floatRepr digits x = lit "nan") ∨
    (F.isInf x = true ∧ F.isNaN x = false ∧ F.sign64 x.bits.toNat = 0 ∧ floatRepr digits x = lit "inf") ∨
    (F.isInf x = true ∧ F.isNaN x = false ∧ F.sign64 x.bits.toNat ≠ 0 ∧ floatRepr digits x = lit "-inf") ∨
    (F.isFinite x = true ∧ F.isNaN x = false ∧ floatRepr digits x = digits x) := by
  unfold floatRepr
  cases hn : F.isNaN x with
  | true => exact .inl ⟨rfl, rfl⟩
  | false =>
    cases hi : F.isInf x with
    | true =>
      by_cases hs : F.sign64 x.bits.toNat = 0
      · exact .inr (.inl ⟨rfl, rfl, hs, by simp [hs]⟩)
      · exact .inr (.inr (.inl ⟨rfl, rfl, hs, by simp [hs]⟩))
    | false =>
      refine .inr (.inr (.inr ⟨?_, rfl, rfl⟩))
      unfold F.isNaN at hn
      unfold F.isInf at hi
      unfold F.isFinite
      cases he : F.exp64 x.bits.toNat == 2047 with
      | false => simpa [bne] using he
      | true =>
        rw [he] at hn hi
        simp only [Bool.true_and] at hn hi
        simp [bne, hi] at hn

theorem floatRepr_inj {digits : FloatRepr} (hr : digits.Lawful) {x y : PyFloat} (h : floatRepr digits x = floatRepr digits y) :
    (if F.isNaN x then theNaN else x) = (if F.isNaN y then theNaN else y) := by
  have nd : ∀ (z : PyFloat) (s : PyStr), F.isFinite z = true → digits z = s → (∃ c ∈ s, c ≥ 110 ∨ c = 78) → False := by
    rintro z s hz rfl ⟨c, hc, h⟩
    have := hr.chars z hz c hc
    simp only [isDigit, Bool.and_eq_true, decide_eq_true_eq] at this
    omega
  have e1 : ∃ c ∈ lit "nan", c ≥ 110 ∨ c = 78 := ⟨110, by decide, by decide⟩
  have e2 : ∃ c ∈ lit "inf", c ≥ 110 ∨ c = 78 := ⟨110, by decide, by decide⟩
  have e3 : ∃ c ∈ lit "-inf", c ≥ 110 ∨ c = 78 := ⟨110, by decide, by decide⟩
  have n12 : lit "nan" ≠ lit "inf" := by decide
  have n13 : lit "nan" ≠ lit "-inf" := by decide
  have n23 : lit "inf" ≠ lit "-inf" := by decide
  have sx := sign64_le x
  have sy := sign64_le y
  rcases floatRepr_cases (digits := digits) x with hx | hx | hx | hx <;> rcases floatRepr_cases (digits := digits) y with hy | hy | hy | hy
  · simp [hx, hy]
  · rw [hx.2, hy.2.2.2] at h; exact absurd h n12
  · rw [hx.2, hy.2.2.2] at h; exact absurd h n13
  · rw [hx.2, hy.2.2] at h; exact absurd e1 (nd y _ hy.1 h.symm)
  · rw [hx.2.2.2, hy.2] at h; exact absurd h.symm n12
  · rw [if_neg (by simp [hx]), if_neg (by simp [hy])]; exact isInf_eq hx.1 hy.1 (by omega)
  · rw [hx.2.2.2, hy.2.2.2] at h; exact absurd h n23
  · rw [hx.2.2.2, hy.2.2] at h; exact absurd e2 (nd y _ hy.1 h.symm)
  · rw [hx.2.2.2, hy.2] at h; exact absurd h.symm n13
  · rw [hx.2.2.2, hy.2.2.2] at h; exact absurd h.symm n23
  · rw [if_neg (by simp [hx]), if_neg (by simp [hy])]; exact isInf_eq hx.1 hy.1 (by omega)
  · rw [hx.2.2.2, hy.2.2] at h; exact absurd e3 (nd y _ hy.1 h.symm)
  · rw [hx.2.2, hy.2] at h; exact absurd e1 (nd x _ hx.1 h)
  · rw [hx.2.2, hy.2.2.2] at h; exact absurd e2 (nd x _ hx.1 h)
  · rw [hx.2.2, hy.2.2.2] at h; exact absurd e3 (nd x _ hx.1 h)
  · rw [if_neg (by simp [hx]), if_neg (by simp [hy])]
    rw [hx.2.2, hy.2.2] at h
    exact hr.injective x y hx.1 hy.1 h

theorem int_ne_float {digits : FloatRepr} (hr : digits.Lawful) (i : Int) (x : PyFloat) : intRepr i ≠ floatRepr digits x := by
  intro h
  have hi := intRepr_chars i
  have key : ∃ c ∈ floatRepr digits x, isDigit c = false ∧ c ≠ 45 := by
    rcases floatRepr_cases (digits := digits) x with hx | hx | hx | hx
    · rw [hx.2]; exact ⟨110, by decide, by decide⟩
    · rw [hx.2.2.2]; exact ⟨110, by decide, by decide⟩
    · rw [hx.2.2.2]; exact ⟨110, by decide, by decide⟩
    · rw [hx.2.2]
      obtain ⟨c, hc, hm⟩ := hr.mark x hx.1
      refine ⟨c, hc, ?_⟩
      rcases hm with rfl | rfl <;> decide
  obtain ⟨c, hc, h1, h2⟩ := key
  rw [← h] at hc
  rcases hi c hc with h' | h'
  · rw [h'] at h1; cases h1
  · exact h2 h'

theorem none_ne_int (i : Int) : lit "None" ≠ intRepr i := by
  intro h
  rcases intRepr_chars i 110 (by rw [← h]; decide) with h | h <;> revert h <;> decide

theorem none_ne_float {digits : FloatRepr} (hr : digits.Lawful) (x : PyFloat) : lit "None" ≠ floatRepr digits x := by
  intro h
  rcases floatRepr_cases (digits := digits) x with hx | hx | hx | hx
  · rw [hx.2] at h; revert h; decide
  · rw [hx.2.2.2] at h; revert h; decide
  · rw [hx.2.2.2] at h; revert h; decide
  · rw [hx.2.2] at h
    have := hr.chars x hx.1 110 (by rw [← h]; decide)
    revert this; decide

/-! ## tokens -/

/-- The characters that end a token: `( ) , = [ ]` and quotes. -/
def stop (c : Nat) : Bool := c == 40 || c == 41 || c == 44 || c == 61 || c == 91 || c == 93 || c == 34 || c == 39

/-- A token: not empty, and none of its characters ends one. -/
def Token (s : PyStr) : Prop := s ≠ [] ∧ ∀ c ∈ s, stop c = false

/-- A text that does not go on with a character of a token. -/
def Stops (r : PyStr) : Prop := ∀ c cs, r = c :: cs → stop c = true

theorem split_tokens {a b r r' : PyStr} (ha : ∀ c ∈ a, stop c = false) (hb : ∀ c ∈ b, stop c = false) (hr : Stops r) (hr' : Stops r')
    (h : a ++ r = b ++ r') : a = b ∧ r = r' := by
  induction a generalizing b with
  | nil =>
    cases b with
    | nil => exact ⟨rfl, h⟩
    | cons c b =>
      have h1 := hr c (b ++ r') h
      rw [hb c (by simp)] at h1
      cases h1
  | cons c a ih =>
    cases b with
    | nil =>
      have h1 := hr' c (a ++ r) h.symm
      rw [ha c (by simp)] at h1
      cases h1
    | cons c' b =>
      simp only [List.cons_append, List.cons.injEq] at h
      have := ih (fun x hx => ha x (by simp [hx])) (fun x hx => hb x (by simp [hx])) h.2
      exact ⟨by rw [h.1, this.1], this.2⟩

theorem token_name {s : PyStr} (h : ObjTree.Name s) : Token s := by
  refine ⟨h.1, fun c hc => ?_⟩
  have := h.2 c hc
  unfold ObjTree.identChar at this
  unfold stop
  simp only [Bool.or_eq_true, Bool.and_eq_true, decide_eq_true_eq, beq_iff_eq] at this
  simp only [Bool.or_eq_false_iff, beq_eq_false_iff_ne]
  omega

theorem token_int (i : Int) : Token (intRepr i) := by
  refine ⟨intRepr_ne_nil i, fun c hc => ?_⟩
  have := intRepr_chars i c hc
  unfold isDigit at this
  unfold stop
  simp only [Bool.and_eq_true, decide_eq_true_eq] at this
  simp only [Bool.or_eq_false_iff, beq_eq_false_iff_ne]
  omega

theorem token_float {digits : FloatRepr} (hr : digits.Lawful) (x : PyFloat) : Token (floatRepr digits x) := by
  rcases floatRepr_cases (digits := digits) x with hx | hx | hx | hx
  · rw [hx.2]; exact ⟨by decide, by decide⟩
  · rw [hx.2.2.2]; exact ⟨by decide, by decide⟩
  · rw [hx.2.2.2]; exact ⟨by decide, by decide⟩
  · rw [hx.2.2]
    refine ⟨?_, fun c hc => ?_⟩
    · obtain ⟨c, cs, e, _⟩ := hr.start x hx.1
      rw [e]; exact nofun
    · have := hr.chars x hx.1 c hc
      unfold isDigit at this
      unfold stop
      simp only [Bool.and_eq_true, decide_eq_true_eq] at this
      simp only [Bool.or_eq_false_iff, beq_eq_false_iff_ne]
      omega

/-! ## values -/

open ObjTree

/-- What can follow a value: nothing, or `,`, `)`, `]`. -/
def After (r : PyStr) : Prop := ∀ c cs, r = c :: cs → c = 44 ∨ c = 41 ∨ c = 93

theorem After.stops {r : PyStr} (h : After r) : Stops r := fun c cs e => by
  rcases h c cs e with rfl | rfl | rfl <;> rfl

/-- The kind of value that a text starts with. -/
def startKind : PyStr → Nat
  | [] => 0
  | c :: cs =>
    if c = 34 ∨ c = 39 then 1
    else if c = 91 then 2
    else if c = 40 then 3
    else if ((c :: cs).dropWhile fun c => !stop c).head? = some 40 then 4
    else 0

def valueKind : ObjTree → Nat
  | .str _ => 1
  | .list _ => 2
  | .tuple _ => 3
  | .obj _ _ => 4
  | _ => 0

theorem drop_token {a r : PyStr} (ha : ∀ c ∈ a, stop c = false) (hr : Stops r) : (a ++ r).dropWhile (fun c => !stop c) = r := by
  induction a with
  | nil =>
    cases r with
    | nil => rfl
    | cons c r =>
      have := hr c r rfl
      simp [this]
  | cons c a ih =>
    rw [List.cons_append, List.dropWhile_cons_of_pos (by simp [ha c])]
    exact ih fun x hx => ha x (by simp [hx])

theorem startKind_token {a r : PyStr} (ha : Token a) (hr : Stops r) : startKind (a ++ r) = if r.head? = some 40 then 4 else 0 := by
  obtain ⟨hn, hc⟩ := ha
  cases a with
  | nil => exact absurd rfl hn
  | cons c cs =>
    have h1 := hc c (by simp)
    unfold stop at h1
    simp only [Bool.or_eq_false_iff, beq_eq_false_iff_ne] at h1
    have e := drop_token hc hr
    show (if c = 34 ∨ c = 39 then 1 else if c = 91 then 2 else if c = 40 then 3
      else if ((c :: (cs ++ r)).dropWhile fun c => !stop c).head? = some 40 then 4 else 0) = _
    rw [if_neg (by omega), if_neg (by omega), if_neg (by omega)]
    rw [List.cons_append] at e
    rw [e]

theorem After.head {r : PyStr} (h : After r) : r.head? ≠ some 40 := by
  cases r with
  | nil => exact nofun
  | cons c cs =>
    rcases h c cs rfl with rfl | rfl | rfl <;> simp

theorem startKind_text {digits : FloatRepr} (hd : digits.Lawful) {printable : Nat → Bool} {t : ObjTree} (ht : Printable t) {r : PyStr} (hr : After r) :
    startKind (text digits printable t ++ r) = valueKind t := by
  have tok : ∀ a, Token a → startKind (a ++ r) = 0 := fun a ha => by rw [startKind_token ha hr.stops, if_neg hr.head]
  have named : ∀ {c : PyStr} {s : PyStr}, Name c → startKind (c ++ (40 :: s)) = 4 := by
    intro c s hc
    rw [startKind_token (token_name hc) (fun d ds e => by cases e; rfl)]
    rfl
  cases ht with
  | none => exact tok (lit "None") ⟨by decide, by decide⟩
  | int i => exact tok _ (token_int i)
  | float x => exact tok _ (token_float hd x)
  | str h =>
    rename_i s
    show startKind (quote s :: _) = 1
    simp only [startKind]
    rw [if_pos (by rcases quote_cases s with e | e <;> rw [e] <;> simp)]
  | list h =>
    cases h with
    | nil => rfl
    | cons => rfl
  | tuple h =>
    cases h with
    | nil => rfl
    | cons _ h =>
      cases h with
      | nil => rfl
      | cons => rfl
  | obj hc h =>
    cases h with
    | nil =>
      simp only [text, List.append_assoc]
      exact named hc
    | cons =>
      simp only [text, List.append_assoc]
      exact named hc

theorem after_items (digits : FloatRepr) (printable : Nat → Bool) (ts : List ObjTree) {r : PyStr} (hr : After r) : After (textItems digits printable ts ++ r) := by
  cases ts with
  | nil => exact hr
  | cons t ts =>
    intro c cs e
    rw [textItems] at e
    cases e
    exact .inl rfl

theorem after_attrs (digits : FloatRepr) (printable : Nat → Bool) (ts : List (PyStr × ObjTree)) {r : PyStr} (hr : After r) :
    After (textAttrs digits printable ts ++ r) := by
  cases ts with
  | nil => exact hr
  | cons t ts =>
    intro c cs e
    obtain ⟨n, t⟩ := t
    rw [textAttrs] at e
    cases e
    exact .inl rfl

theorem after_close {c : Nat} (hc : c = 41 ∨ c = 93) (r : PyStr) : After (c :: r) := fun d ds e => by
  cases e
  exact .inr hc

theorem after_comma (r : PyStr) : After (44 :: r) := fun d ds e => by
  cases e
  exact .inl rfl

theorem stops_cons {c : Nat} (hc : stop c = true) (r : PyStr) : Stops (c :: r) := fun d ds e => by
  cases e
  exact hc

theorem text_head {digits : FloatRepr} (hd : digits.Lawful) {printable : Nat → Bool} {t : ObjTree} (ht : Printable t) :
    ∃ c cs, text digits printable t = c :: cs ∧ c ≠ 41 ∧ c ≠ 93 := by
  have tok : ∀ a s, Token a → ∃ c cs, a ++ s = c :: cs ∧ c ≠ 41 ∧ c ≠ 93 := by
    rintro a s ⟨hn, hc⟩
    cases a with
    | nil => exact absurd rfl hn
    | cons c cs =>
      have h1 := hc c (by simp)
      unfold stop at h1
      simp only [Bool.or_eq_false_iff, beq_eq_false_iff_ne] at h1
      exact ⟨c, cs ++ s, rfl, by omega, by omega⟩
  have tok0 : ∀ a, Token a → ∃ c cs, a = c :: cs ∧ c ≠ 41 ∧ c ≠ 93 := fun a ha => by
    have := tok a [] ha
    rwa [List.append_nil] at this
  cases ht with
  | none => exact tok0 (lit "None") ⟨by decide, by decide⟩
  | int i => exact tok0 _ (token_int i)
  | float x => exact tok0 _ (token_float hd x)
  | str h =>
    rename_i s
    refine ⟨quote s, _, rfl, ?_, ?_⟩ <;> rcases quote_cases s with e | e <;> rw [e] <;> decide
  | list h =>
    cases h with
    | nil => exact ⟨_, _, rfl, by decide, by decide⟩
    | cons => exact ⟨_, _, rfl, by decide, by decide⟩
  | tuple h =>
    cases h with
    | nil => exact ⟨_, _, rfl, by decide, by decide⟩
    | cons _ h =>
      cases h with
      | nil => exact ⟨_, _, rfl, by decide, by decide⟩
      | cons => exact ⟨_, _, rfl, by decide, by decide⟩
  | obj hc h =>
    cases h with
    | nil => exact tok _ _ (token_name hc)
    | cons => exact tok _ _ (token_name hc)

theorem name_head {n : PyStr} (h : Name n) (s r : PyStr) : n ++ s ≠ 41 :: r := by
  obtain ⟨hn, hc⟩ := token_name h
  cases n with
  | nil => exact absurd rfl hn
  | cons c cs =>
    intro e
    cases e
    have := hc 41 (by simp)
    cases this

theorem kind_of_text {digits : FloatRepr} (hd : digits.Lawful) {printable : Nat → Bool} {t t' : ObjTree} (ht : Printable t) (ht' : Printable t') {r r' : PyStr}
    (hr : After r) (hr' : After r') (h : text digits printable t ++ r = text digits printable t' ++ r') : valueKind t = valueKind t' := by
  rw [← startKind_text hd ht hr, ← startKind_text hd ht' hr', h]

theorem no_close {digits : FloatRepr} (hd : digits.Lawful) {printable : Nat → Bool} {t : ObjTree} (ht : Printable t) {c : Nat} (hc : c = 41 ∨ c = 93) (s r : PyStr) :
    text digits printable t ++ s ≠ c :: r := by
  obtain ⟨d, ds, e, h1, h2⟩ := text_head hd (printable := printable) ht
  rw [e]
  intro h
  cases h
  omega

mutual
/-- Different values (up to NaNs) have different texts, whatever follows. -/
theorem text_inj {digits : FloatRepr} (hd : digits.Lawful) {printable : Nat → Bool} : (t t' : ObjTree) → Printable t → Printable t' → (r r' : PyStr) → After r →
    After r' → text digits printable t ++ r = text digits printable t' ++ r' → t.forgetNaN = t'.forgetNaN ∧ r = r'
  | .none, t', ht, ht', r, r', d, d', h => by
    have k := kind_of_text hd ht ht' d d' h
    cases t' with
    | none => exact ⟨rfl, List.append_cancel_left h⟩
    | int i => exact absurd (split_tokens (a := lit "None") (by decide) (token_int i).2 d.stops d'.stops h).1 (none_ne_int i)
    | float x => exact absurd (split_tokens (a := lit "None") (by decide) (token_float hd x).2 d.stops d'.stops h).1 (none_ne_float hd x)
    | _ => cases k
  | .int i, t', ht, ht', r, r', d, d', h => by
    have k := kind_of_text hd ht ht' d d' h
    cases t' with
    | none => exact absurd (split_tokens (b := lit "None") (token_int i).2 (by decide) d.stops d'.stops h).1.symm (none_ne_int i)
    | int j =>
      have := split_tokens (token_int i).2 (token_int j).2 d.stops d'.stops h
      exact ⟨by rw [intRepr_inj this.1], this.2⟩
    | float x => exact absurd (split_tokens (token_int i).2 (token_float hd x).2 d.stops d'.stops h).1 (int_ne_float hd i x)
    | _ => cases k
  | .float x, t', ht, ht', r, r', d, d', h => by
    have k := kind_of_text hd ht ht' d d' h
    cases t' with
    | none => exact absurd (split_tokens (b := lit "None") (token_float hd x).2 (by decide) d.stops d'.stops h).1.symm (none_ne_float hd x)
    | int j => exact absurd (split_tokens (token_float hd x).2 (token_int j).2 d.stops d'.stops h).1.symm (int_ne_float hd j x)
    | float y =>
      have := split_tokens (token_float hd x).2 (token_float hd y).2 d.stops d'.stops h
      exact ⟨by simp only [ObjTree.forgetNaN, floatRepr_inj hd this.1], this.2⟩
    | _ => cases k
  | .str s, t', ht, ht', r, r', d, d', h => by
    have k := kind_of_text hd ht ht' d d' h
    cases t' with
    | str s' =>
      cases ht with
      | str hs =>
        cases ht' with
        | str hs' =>
          have := strRepr_inj hs hs' h
          exact ⟨by rw [this.1], this.2⟩
    | _ => cases k
  | .list [], t', ht, ht', r, r', d, d', h => by
    have k := kind_of_text hd ht ht' d d' h
    cases t' with
    | list l' =>
      cases ht' with
      | list hl =>
        cases hl with
        | nil => exact ⟨rfl, List.append_cancel_left h⟩
        | cons hx hxs =>
          simp only [text, List.append_assoc] at h
          exact absurd (List.cons.inj h).2.symm (no_close hd hx (.inr rfl) _ _)
    | _ => cases k
  | .list (t :: ts), t', ht, ht', r, r', d, d', h => by
    have k := kind_of_text hd ht ht' d d' h
    cases t' with
    | list l' =>
      cases ht with
      | list ht =>
        cases ht with
        | cons ht hts =>
          cases ht' with
          | list hl =>
            cases hl with
            | nil =>
              simp only [text, List.append_assoc] at h
              exact absurd (List.cons.inj h).2 (no_close hd ht (.inr rfl) _ _)
            | cons hx hxs =>
              simp only [text, List.append_assoc, List.append_cancel_left_eq] at h
              have h1 := text_inj hd t _ ht hx _ _ (after_items _ _ _ (after_close (.inr rfl) _)) (after_items _ _ _ (after_close (.inr rfl) _)) h
              have h2 := textItems_inj hd ts _ hts hxs 93 (.inr rfl) r r' h1.2
              exact ⟨by simp only [ObjTree.forgetNaN, ObjTree.forgetNaNs, h1.1, h2.1], h2.2⟩
    | _ => cases k
  | .tuple [], t', ht, ht', r, r', d, d', h => by
    have k := kind_of_text hd ht ht' d d' h
    cases t' with
    | tuple l' =>
      cases ht' with
      | tuple hl =>
        cases hl with
        | nil => exact ⟨rfl, List.append_cancel_left h⟩
        | cons hx hxs =>
          cases hxs with
          | nil =>
            simp only [text, List.append_assoc] at h
            exact absurd (List.cons.inj h).2.symm (no_close hd hx (.inl rfl) _ _)
          | cons =>
            simp only [text, List.append_assoc] at h
            exact absurd (List.cons.inj h).2.symm (no_close hd hx (.inl rfl) _ _)
    | _ => cases k
  | .tuple [t], t', ht, ht', r, r', d, d', h => by
    have k := kind_of_text hd ht ht' d d' h
    cases t' with
    | tuple l' =>
      cases ht with
      | tuple ht =>
        cases ht with
        | cons ht _ =>
          cases ht' with
          | tuple hl =>
            cases hl with
            | nil =>
              simp only [text, List.append_assoc] at h
              exact absurd (List.cons.inj h).2 (no_close hd ht (.inl rfl) _ _)
            | cons hx hxs =>
              cases hxs with
              | nil =>
                simp only [text, List.append_assoc, List.append_cancel_left_eq] at h
                have h1 := text_inj hd t _ ht hx _ _ (after_comma _) (after_comma _) h
                exact ⟨by simp only [ObjTree.forgetNaN, ObjTree.forgetNaNs, h1.1], (List.cons.inj (List.cons.inj h1.2).2).2⟩
              | cons hy hys =>
                simp only [text, List.append_assoc, List.append_cancel_left_eq] at h
                have h1 := text_inj hd t _ ht hx _ _ (after_comma _) (after_items _ _ _ (after_close (.inl rfl) _)) h
                have h2 := h1.2
                simp only [textItems] at h2
                exact absurd (List.cons.inj (List.cons.inj h2).2).1 (by decide)
    | _ => cases k
  | .tuple (t :: u :: ts), t', ht, ht', r, r', d, d', h => by
    have k := kind_of_text hd ht ht' d d' h
    cases t' with
    | tuple l' =>
      cases ht with
      | tuple ht =>
        cases ht with
        | cons ht hts =>
          cases ht' with
          | tuple hl =>
            cases hl with
            | nil =>
              simp only [text, List.append_assoc] at h
              exact absurd (List.cons.inj h).2 (no_close hd ht (.inl rfl) _ _)
            | cons hx hxs =>
              cases hxs with
              | nil =>
                simp only [text, List.append_assoc, List.append_cancel_left_eq] at h
                have h1 := text_inj hd t _ ht hx _ _ (after_items _ _ _ (after_close (.inl rfl) _)) (after_comma _) h
                have h2 := h1.2
                simp only [textItems] at h2
                exact absurd (List.cons.inj (List.cons.inj h2).2).1 (by decide)
              | cons hy hys =>
                simp only [text, List.append_assoc, List.append_cancel_left_eq] at h
                have h1 := text_inj hd t _ ht hx _ _ (after_items _ _ _ (after_close (.inl rfl) _)) (after_items _ _ _ (after_close (.inl rfl) _)) h
                have h2 := textItems_inj hd (u :: ts) _ hts (.cons hy hys) 41 (.inl rfl) r r' h1.2
                have h3 := h2.1
                exact ⟨by rw [ObjTree.forgetNaN, ObjTree.forgetNaN, ObjTree.forgetNaNs, h3, h1.1]; rfl, h2.2⟩
    | _ => cases k
  | .obj cls [], t', ht, ht', r, r', d, d', h => by
    have k := kind_of_text hd ht ht' d d' h
    cases t' with
    | obj cls' l' =>
      cases ht with
      | obj hc _ =>
        cases ht' with
        | obj hc' hl =>
          cases hl with
          | nil =>
            simp only [text, List.append_assoc] at h
            have h0 := split_tokens (token_name hc).2 (token_name hc').2 (stops_cons (c := 40) rfl _) (stops_cons (c := 40) rfl _) h
            exact ⟨by rw [h0.1], (List.cons.inj (List.cons.inj h0.2).2).2⟩
          | cons hn hx hxs =>
            simp only [text, List.append_assoc] at h
            have h0 := split_tokens (token_name hc).2 (token_name hc').2 (stops_cons (c := 40) rfl _) (stops_cons (c := 40) rfl _) h
            exact absurd (List.cons.inj h0.2).2.symm (name_head hn _ _)
    | _ => cases k
  | .obj cls ((n, t) :: ts), t', ht, ht', r, r', d, d', h => by
    have k := kind_of_text hd ht ht' d d' h
    cases t' with
    | obj cls' l' =>
      cases ht with
      | obj hc ht =>
        cases ht with
        | cons hm ht hts =>
          cases ht' with
          | obj hc' hl =>
            cases hl with
            | nil =>
              simp only [text, List.append_assoc] at h
              have h0 := split_tokens (token_name hc).2 (token_name hc').2 (stops_cons (c := 40) rfl _) (stops_cons (c := 40) rfl _) h
              exact absurd (List.cons.inj h0.2).2 (name_head hm _ _)
            | cons hn hx hxs =>
              simp only [text, List.append_assoc] at h
              have h0 := split_tokens (token_name hc).2 (token_name hc').2 (stops_cons (c := 40) rfl _) (stops_cons (c := 40) rfl _) h
              have h1 := split_tokens (token_name hm).2 (token_name hn).2 (stops_cons (c := 61) rfl _) (stops_cons (c := 61) rfl _) (List.cons.inj h0.2).2
              have h2 := text_inj hd t _ ht hx _ _ (after_attrs _ _ _ (after_close (.inl rfl) _)) (after_attrs _ _ _ (after_close (.inl rfl) _))
                (List.cons.inj h1.2).2
              have h3 := textAttrs_inj hd ts _ hts hxs r r' h2.2
              exact ⟨by simp only [ObjTree.forgetNaN, ObjTree.forgetNaNAttrs, h0.1, h1.1, h2.1, h3.1], h3.2⟩
    | _ => cases k
theorem textItems_inj {digits : FloatRepr} (hd : digits.Lawful) {printable : Nat → Bool} : (ts ts' : List ObjTree) → PrintableItems ts → PrintableItems ts' →
    (c : Nat) → (c = 41 ∨ c = 93) → (r r' : PyStr) → textItems digits printable ts ++ c :: r = textItems digits printable ts' ++ c :: r' →
    ObjTree.forgetNaNs ts = ObjTree.forgetNaNs ts' ∧ r = r'
  | [], ts', _, h', c, hc, r, r', e => by
    cases h' with
    | nil => exact ⟨rfl, (List.cons.inj e).2⟩
    | cons =>
      simp only [textItems] at e
      have : c = 44 := (List.cons.inj e).1
      omega
  | t :: ts, ts', h, h', c, hc, r, r', e => by
    cases h with
    | cons ht hts =>
      cases h' with
      | nil =>
        simp only [textItems] at e
        have : 44 = c := (List.cons.inj e).1
        omega
      | cons hx hxs =>
        simp only [textItems, List.append_assoc, List.append_cancel_left_eq] at e
        have h1 := text_inj hd t _ ht hx _ _ (after_items _ _ _ (after_close hc _)) (after_items _ _ _ (after_close hc _)) e
        have h2 := textItems_inj hd ts _ hts hxs c hc r r' h1.2
        exact ⟨by simp only [ObjTree.forgetNaNs, h1.1, h2.1], h2.2⟩
theorem textAttrs_inj {digits : FloatRepr} (hd : digits.Lawful) {printable : Nat → Bool} : (ts ts' : List (PyStr × ObjTree)) → PrintableAttrs ts → PrintableAttrs ts' →
    (r r' : PyStr) → textAttrs digits printable ts ++ 41 :: r = textAttrs digits printable ts' ++ 41 :: r' →
    ObjTree.forgetNaNAttrs ts = ObjTree.forgetNaNAttrs ts' ∧ r = r'
  | [], ts', _, h', r, r', e => by
    cases h' with
    | nil => exact ⟨rfl, (List.cons.inj e).2⟩
    | cons =>
      simp only [textAttrs] at e
      exact absurd (List.cons.inj e).1 (by decide)
  | (n, t) :: ts, ts', h, h', r, r', e => by
    cases h with
    | cons hm ht hts =>
      cases h' with
      | nil =>
        simp only [textAttrs] at e
        exact absurd (List.cons.inj e).1 (by decide)
      | cons hn hx hxs =>
        simp only [textAttrs, List.append_assoc, List.append_cancel_left_eq] at e
        have h1 := split_tokens (token_name hm).2 (token_name hn).2 (stops_cons (c := 61) rfl _) (stops_cons (c := 61) rfl _) e
        have h2 := text_inj hd t _ ht hx _ _ (after_attrs _ _ _ (after_close (.inl rfl) _)) (after_attrs _ _ _ (after_close (.inl rfl) _))
          (List.cons.inj h1.2).2
        have h3 := textAttrs_inj hd ts _ hts hxs r r' h2.2
        exact ⟨by simp only [ObjTree.forgetNaNAttrs, h1.1, h2.1, h3.1], h3.2⟩
end

/-! ## the text depends on the value up to NaNs only -/

theorem floatRepr_forget {digits : FloatRepr} (x : PyFloat) : floatRepr digits (if F.isNaN x then theNaN else x) = floatRepr digits x := by
  cases h : F.isNaN x with
  | true =>
    simp only [if_true]
    unfold floatRepr
    rw [h]
    rfl
  | false => rfl

mutual
theorem text_forget (digits : FloatRepr) (printable : Nat → Bool) : (t : ObjTree) → text digits printable t.forgetNaN = text digits printable t
  | .none => rfl
  | .int _ => rfl
  | .float x => floatRepr_forget x
  | .str _ => rfl
  | .list [] => rfl
  | .list (t :: ts) => by simp only [ObjTree.forgetNaN, ObjTree.forgetNaNs, text, text_forget digits printable t, textItems_forget digits printable ts]
  | .tuple [] => rfl
  | .tuple [t] => by simp only [ObjTree.forgetNaN, ObjTree.forgetNaNs, text, text_forget digits printable t]
  | .tuple (t :: u :: ts) => by
    have := textItems_forget digits printable (u :: ts)
    simp only [ObjTree.forgetNaNs] at this
    simp only [ObjTree.forgetNaN, ObjTree.forgetNaNs, text, text_forget digits printable t, this]
  | .obj _ [] => rfl
  | .obj _ ((_, t) :: ts) => by simp only [ObjTree.forgetNaN, ObjTree.forgetNaNAttrs, text, text_forget digits printable t, textAttrs_forget digits printable ts]
theorem textItems_forget (digits : FloatRepr) (printable : Nat → Bool) : (ts : List ObjTree) →
    textItems digits printable (ObjTree.forgetNaNs ts) = textItems digits printable ts
  | [] => rfl
  | t :: ts => by simp only [ObjTree.forgetNaNs, textItems, text_forget digits printable t, textItems_forget digits printable ts]
theorem textAttrs_forget (digits : FloatRepr) (printable : Nat → Bool) : (ts : List (PyStr × ObjTree)) →
    textAttrs digits printable (ObjTree.forgetNaNAttrs ts) = textAttrs digits printable ts
  | [] => rfl
  | (_, t) :: ts => by simp only [ObjTree.forgetNaNAttrs, textAttrs, text_forget digits printable t, textAttrs_forget digits printable ts]
end

theorem text_eq_iff {digits : FloatRepr} (hd : digits.Lawful) (printable : Nat → Bool) {t t' : ObjTree} (ht : Printable t) (ht' : Printable t') :
    text digits printable t = text digits printable t' ↔ t.forgetNaN = t'.forgetNaN := by
  constructor
  · intro h
    exact (text_inj hd (printable := printable) t t' ht ht' [] [] nofun nofun (by rw [h])).1
  · intro h
    rw [← text_forget digits printable t, h, text_forget]

end PyRepr
end Genie
