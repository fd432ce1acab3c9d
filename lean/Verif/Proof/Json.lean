import Verif.Spec.Json
/-!
# JSON text determines the tree
-/

namespace Genie.Json
open PyTree

/-! ## integers -/

def natVal (s : PyStr) : Nat := s.foldl (fun a c => 10 * a + (c - 48)) 0

theorem natVal_natRepr (n : Nat) : natVal (natRepr n) = n := by
  induction n using Nat.strongRecOn with
  | ind n ih =>
    rw [natRepr]
    split
    · simp [natVal]
    · have := ih (n / 10) (by omega)
      simp only [natVal] at this
      simp only [natVal, List.foldl_append, List.foldl_cons, List.foldl_nil, this]
      omega

theorem natRepr_digits (n : Nat) : ∀ c ∈ natRepr n, isDigit c = true := by
  induction n using Nat.strongRecOn with
  | ind n ih =>
    rw [natRepr]
    split
    · intro c hc
      simp only [List.mem_singleton] at hc
      simp only [isDigit, Bool.and_eq_true, decide_eq_true_eq]; omega
    · intro c hc
      rw [List.mem_append] at hc
      rcases hc with hc | hc
      · exact ih _ (by omega) c hc
      · simp only [List.mem_singleton] at hc
        simp only [isDigit, Bool.and_eq_true, decide_eq_true_eq]; omega

theorem natRepr_ne_nil (n : Nat) : natRepr n ≠ [] := by
  rw [natRepr]; split <;> simp

theorem natRepr_inj {m n : Nat} (h : natRepr m = natRepr n) : m = n := by
  rw [← natVal_natRepr m, h, natVal_natRepr]

theorem natRepr_head_ne_45 (n : Nat) (s : PyStr) : natRepr n ≠ 45 :: s := by
  intro h
  have := natRepr_digits n 45 (by rw [h]; simp)
  simp [isDigit] at this

theorem intRepr_inj {i j : Int} (h : intRepr i = intRepr j) : i = j := by
  unfold intRepr at h
  split at h <;> split at h
  · have := natRepr_inj (List.cons.inj h).2; omega
  · exact absurd h.symm (natRepr_head_ne_45 _ _)
  · exact absurd h (natRepr_head_ne_45 _ _)
  · have := natRepr_inj h; omega

theorem intRepr_chars (i : Int) : ∀ c ∈ intRepr i, isDigit c = true ∨ c = 45 := by
  intro c hc
  unfold intRepr at hc
  split at hc
  · simp only [List.mem_cons] at hc
    rcases hc with rfl | hc
    · exact .inr rfl
    · exact .inl (natRepr_digits _ c hc)
  · exact .inl (natRepr_digits _ c hc)

theorem intRepr_ne_nil (i : Int) : intRepr i ≠ [] := by
  unfold intRepr; split
  · simp
  · exact natRepr_ne_nil _

/-! ## strings -/

def hexVal (c : Nat) : Nat := if c < 58 then c - 48 else c - 87

theorem hexVal_hexDigit {n : Nat} (h : n < 16) : hexVal (hexDigit n) = n := by
  unfold hexVal hexDigit; split <;> split <;> omega

def hex4 (a b c d : Nat) : Nat := hexVal a * 4096 + hexVal b * 256 + hexVal c * 16 + hexVal d

theorem hex4_uEscape {n : Nat} (h : n < 65536) :
    hex4 (hexDigit (n / 4096 % 16)) (hexDigit (n / 256 % 16)) (hexDigit (n / 16 % 16)) (hexDigit (n % 16)) = n := by
  unfold hex4
  rw [hexVal_hexDigit (Nat.mod_lt _ (by decide)), hexVal_hexDigit (Nat.mod_lt _ (by decide)),
    hexVal_hexDigit (Nat.mod_lt _ (by decide)), hexVal_hexDigit (Nat.mod_lt _ (by decide))]
  omega

/-- Reads one character of a string literal (not the closing quote). -/
def unescape : PyStr → Option (Nat × PyStr)
  | 92 :: 117 :: a :: b :: c :: d :: rest =>
    if 0xD800 ≤ hex4 a b c d ∧ hex4 a b c d < 0xDC00 then
      match rest with
      | 92 :: 117 :: a' :: b' :: c' :: d' :: rest' =>
        some (0x10000 + (hex4 a b c d - 0xD800) * 1024 + (hex4 a' b' c' d' - 0xDC00), rest')
      | _ => none
    else some (hex4 a b c d, rest)
  | 92 :: 34 :: r => some (34, r)
  | 92 :: 92 :: r => some (92, r)
  | 92 :: 110 :: r => some (10, r)
  | 92 :: 114 :: r => some (13, r)
  | 92 :: 116 :: r => some (9, r)
  | 92 :: 102 :: r => some (12, r)
  | 92 :: 98 :: r => some (8, r)
  | c :: r => if c = 34 then none else some (c, r)
  | [] => none

theorem unescape_u {n : Nat} (h : n < 65536) (r : PyStr) (hn : ¬ (0xD800 ≤ n ∧ n < 0xDC00)) :
    unescape (uEscape n ++ r) = some (n, r) := by
  simp only [uEscape, List.cons_append, List.nil_append, unescape, hex4_uEscape h, if_neg hn]

theorem unescape_uu {m n : Nat} (hm : 0xD800 ≤ m ∧ m < 0xDC00) (hn : n < 65536) (r : PyStr) :
    unescape (uEscape m ++ (uEscape n ++ r)) = some (0x10000 + (m - 0xD800) * 1024 + (n - 0xDC00), r) := by
  simp only [uEscape, List.cons_append, List.nil_append, unescape, hex4_uEscape (show m < 65536 by omega), hex4_uEscape hn, if_pos hm]

theorem unescape_plain {c : Nat} (h1 : c ≠ 34) (h2 : c ≠ 92) (r : PyStr) : unescape (c :: r) = some (c, r) := by
  rw [unescape.eq_def]
  split
  all_goals simp_all

theorem unescape_escapeChar {c : Nat} (h : isScalar c = true) (r : PyStr) :
    unescape (escapeChar c ++ r) = some (c, r) := by
  simp only [isScalar, Bool.or_eq_true, Bool.and_eq_true, decide_eq_true_eq] at h
  unfold escapeChar
  split
  · subst c; rfl
  split
  · subst c; rfl
  split
  · subst c; rfl
  split
  · subst c; rfl
  split
  · subst c; rfl
  split
  · subst c; rfl
  split
  · subst c; rfl
  split
  · exact unescape_plain (by omega) (by omega) r
  split
  · exact unescape_u (by omega) r (by omega)
  · rw [List.append_assoc, unescape_uu (by omega) (by omega)]
    obtain ⟨m, rfl⟩ : ∃ m, c = 65536 + m := ⟨c - 65536, by omega⟩
    have hm : m < 1048576 := by omega
    rw [Nat.add_sub_cancel_left, Nat.add_sub_cancel_left, Nat.add_sub_cancel_left, Nat.mod_eq_of_lt (show m / 1024 < 1024 by omega),
      Nat.add_assoc, Nat.mul_comm, Nat.div_add_mod]

theorem encodeStr_inj {s s' r r' : PyStr} (hs : Text s) (hs' : Text s') (h : encodeStr s ++ r = encodeStr s' ++ r') : s = s' ∧ r = r' := by
  simp only [encodeStr, List.cons_append, List.cons.injEq, true_and] at h
  induction s generalizing s' with
  | nil =>
    cases s' with
    | nil => simpa using h
    | cons c' s' =>
      have h2 := unescape_escapeChar (hs' c' (by simp)) (s'.flatMap escapeChar ++ [34] ++ r')
      have : unescape ([34] ++ r) = Option.none := rfl
      simp only [List.flatMap_nil, List.nil_append, List.flatMap_cons] at h
      rw [h] at this
      simp only [List.append_assoc] at this h2
      rw [h2] at this; cases this
  | cons c s ih =>
    have h1 := unescape_escapeChar (hs c (by simp)) (s.flatMap escapeChar ++ [34] ++ r)
    cases s' with
    | nil =>
      have : unescape ([34] ++ r') = Option.none := rfl
      simp only [List.flatMap_nil, List.nil_append, List.flatMap_cons] at h
      rw [← h] at this
      simp only [List.append_assoc] at this h1
      rw [h1] at this; cases this
    | cons c' s' =>
      have h2 := unescape_escapeChar (hs' c' (by simp)) (s'.flatMap escapeChar ++ [34] ++ r')
      simp only [List.flatMap_cons, List.append_assoc] at h h1 h2
      rw [h, h2] at h1
      simp only [Option.some.injEq, Prod.mk.injEq] at h1
      have := ih (s' := s') (fun x hx => hs x (by simp [hx])) (fun x hx => hs' x (by simp [hx]))
        (by simp only [List.append_assoc]; exact h1.2.symm)
      exact ⟨by rw [h1.1, this.1], this.2⟩

/-! ## tokens -/

/-- What follows a value: nothing, `,` or a new line. -/
def Delim (r : PyStr) : Prop := ∀ c cs, r = c :: cs → c = 44 ∨ c = 10

def NoDelim (s : PyStr) : Prop := ∀ c ∈ s, c ≠ 44 ∧ c ≠ 10

theorem token_split {a b r r' : PyStr} (ha : NoDelim a) (hb : NoDelim b) (hr : Delim r) (hr' : Delim r')
    (h : a ++ r = b ++ r') : a = b ∧ r = r' := by
  induction a generalizing b with
  | nil =>
    cases b with
    | nil => exact ⟨rfl, h⟩
    | cons c b =>
      have h1 := hr c (b ++ r') h
      have h2 := hb c (by simp)
      omega
  | cons c a ih =>
    cases b with
    | nil =>
      have h1 := hr' c (a ++ r) h.symm
      have h2 := ha c (by simp)
      omega
    | cons c' b =>
      simp only [List.cons_append, List.cons.injEq] at h
      have := ih (fun x hx => ha x (by simp [hx])) (fun x hx => hb x (by simp [hx])) h.2
      exact ⟨by rw [h.1, this.1], this.2⟩

/-- Which kind of value a text starts. -/
def startClass (c : Nat) : Nat := if c = 34 then 1 else if c = 91 then 2 else if c = 123 then 3 else 0

def kind : PyTree → Nat
  | .str _ => 1
  | .list _ => 2
  | .dict _ => 3
  | _ => 0

theorem floatStr_cases {repr : FloatRepr} (x : PyFloat) :
    (F.isNaN x = true ∧ floatStr repr x = lit "NaN") ∨
    (F.isInf x = true ∧ F.isNaN x = false ∧ F.sign64 x.bits.toNat = 0 ∧ floatStr repr x = lit "Infinity") ∨
    (F.isInf x = true ∧ F.isNaN x = false ∧ F.sign64 x.bits.toNat ≠ 0 ∧ floatStr repr x = lit "-Infinity") ∨
    (F.isFinite x = true ∧ F.isNaN x = false ∧ floatStr repr x = repr x) := by
  unfold floatStr
  by_cases h1 : F.isNaN x = true
  · exact .inl ⟨h1, by simp [h1]⟩
  · by_cases h2 : F.isInf x = true
    · by_cases h3 : F.sign64 x.bits.toNat = 0
      · exact .inr (.inl ⟨h2, by simpa using h1, h3, by simp [h1, h2, h3]⟩)
      · exact .inr (.inr (.inl ⟨h2, by simpa using h1, h3, by simp [h1, h2, h3]⟩))
    · refine .inr (.inr (.inr ⟨?_, by simpa using h1, by simp [h1, h2]⟩))
      simp only [F.isNaN, F.isInf, F.isFinite, Bool.and_eq_true, bne_iff_ne, beq_iff_eq, ne_eq, not_and, Decidable.not_not] at *
      intro h
      exact h2 h (h1 h)

theorem floatStr_noDelim {repr : FloatRepr} (hr : repr.Lawful) (x : PyFloat) : NoDelim (floatStr repr x) := by
  rcases floatStr_cases (repr := repr) x with h | h | h | h
  · rw [h.2]; unfold NoDelim; decide
  · rw [h.2.2.2]; unfold NoDelim; decide
  · rw [h.2.2.2]; unfold NoDelim; decide
  · rw [h.2.2]
    intro c hc
    have := hr.chars x h.1 c hc
    simp only [isDigit, Bool.and_eq_true, decide_eq_true_eq] at this
    omega

theorem start_of_chars {s : PyStr} (hne : s ≠ []) (h : ∀ c ∈ s, startClass c = 0) : ∃ c cs, s = c :: cs ∧ startClass c = 0 := by
  cases s with
  | nil => exact absurd rfl hne
  | cons c cs => exact ⟨c, cs, rfl, h c (by simp)⟩

theorem encode_start {repr : FloatRepr} (hr : repr.Lawful) (l : Nat) (t : PyTree) :
    ∃ c cs, encode repr l t = c :: cs ∧ startClass c = kind t := by
  cases t with
  | none => exact ⟨110, _, rfl, rfl⟩
  | int i =>
    refine start_of_chars (intRepr_ne_nil i) fun c hc => ?_
    have := intRepr_chars i c hc
    simp only [isDigit, Bool.and_eq_true, decide_eq_true_eq] at this
    unfold startClass
    rw [if_neg (by omega), if_neg (by omega), if_neg (by omega)]
  | float x =>
    simp only [encode]
    rcases floatStr_cases (repr := repr) x with h | h | h | h
    · rw [h.2]; exact ⟨78, _, rfl, rfl⟩
    · rw [h.2.2.2]; exact ⟨73, _, rfl, rfl⟩
    · rw [h.2.2.2]; exact ⟨45, _, rfl, rfl⟩
    · rw [h.2.2]
      obtain ⟨c, cs, e, hc⟩ := hr.start x h.1
      refine ⟨c, cs, e, ?_⟩
      simp only [isDigit, Bool.and_eq_true, decide_eq_true_eq] at hc
      unfold startClass
      rw [if_neg (by omega), if_neg (by omega), if_neg (by omega)]; rfl
  | str s => exact ⟨34, _, rfl, rfl⟩
  | list l' => cases l' <;> exact ⟨91, _, rfl, rfl⟩
  | dict l' =>
    cases l' with
    | nil => exact ⟨123, _, rfl, rfl⟩
    | cons kv kvs => exact ⟨123, _, rfl, rfl⟩

theorem kind_eq {repr : FloatRepr} (hr : repr.Lawful) {l : Nat} {t t' : PyTree} {r r' : PyStr}
    (h : encode repr l t ++ r = encode repr l t' ++ r') : kind t = kind t' := by
  obtain ⟨c, cs, e, hc⟩ := encode_start hr l t
  obtain ⟨c', cs', e', hc'⟩ := encode_start hr l t'
  rw [e, e'] at h
  simp only [List.cons_append, List.cons.injEq] at h
  rw [← hc, ← hc', h.1]

theorem isInf_eq {x y : PyFloat} (hx : F.isInf x = true) (hy : F.isInf y = true)
    (hs : F.sign64 x.bits.toNat = F.sign64 y.bits.toNat) : x = y := by
  cases x with | mk a => cases y with | mk b =>
  simp only [F.isInf, F.sign64, F.exp64, F.man64, Bool.and_eq_true, beq_iff_eq] at *
  congr 1
  apply BitVec.eq_of_toNat_eq
  have := a.isLt
  have := b.isLt
  omega

theorem sign64_le (x : PyFloat) : F.sign64 x.bits.toNat ≤ 1 := by
  have := x.bits.isLt
  simp only [F.sign64]; omega

theorem floatStr_inj {repr : FloatRepr} (hr : repr.Lawful) {x y : PyFloat} (h : floatStr repr x = floatStr repr y) :
    (if F.isNaN x then theNaN else x) = (if F.isNaN y then theNaN else y) := by
  have nd : ∀ (z : PyFloat) (s : PyStr), F.isFinite z = true → repr z = s → (∃ c ∈ s, c ≥ 110 ∨ c = 78) → False := by
    rintro z s hz rfl ⟨c, hc, h⟩
    have := hr.chars z hz c hc
    simp only [isDigit, Bool.and_eq_true, decide_eq_true_eq] at this
    omega
  have e1 : ∃ c ∈ lit "NaN", c ≥ 110 ∨ c = 78 := ⟨78, by decide, by decide⟩
  have e2 : ∃ c ∈ lit "Infinity", c ≥ 110 ∨ c = 78 := ⟨110, by decide, by decide⟩
  have e3 : ∃ c ∈ lit "-Infinity", c ≥ 110 ∨ c = 78 := ⟨110, by decide, by decide⟩
  have n12 : lit "NaN" ≠ lit "Infinity" := by decide
  have n13 : lit "NaN" ≠ lit "-Infinity" := by decide
  have n23 : lit "Infinity" ≠ lit "-Infinity" := by decide
  have sx := sign64_le x
  have sy := sign64_le y
  rcases floatStr_cases (repr := repr) x with hx | hx | hx | hx <;> rcases floatStr_cases (repr := repr) y with hy | hy | hy | hy
  · simp [hx, hy]
  · rw [hx.2, hy.2.2.2] at h; exact absurd h n12
  · rw [hx.2, hy.2.2.2] at h; exact absurd h n13
  · rw [hx.2, hy.2.2] at h; exact absurd e1 (nd y _ hy.1 h.symm)
  · rw [hx.2.2.2, hy.2] at h; exact absurd h.symm n12
  · rw [if_neg (by simp [hx]), if_neg (by simp [hy])]; exact isInf_eq hx.1 hy.1 (by omega)
  · rw [hx.2.2.2, hy.2.2.2] at h; exact absurd h n23
  · rw [hx.2.2.2, hy.2.2] at h; exact absurd e2 (nd y _ hy.1 h.symm)
  · rw [hx.2.2.2, hy.2] at h; exact absurd h.symm n13
  · rw [hx.2.2.2, hy.2.2.2] at h; exact absurd h.symm n23
  · rw [if_neg (by simp [hx]), if_neg (by simp [hy])]; exact isInf_eq hx.1 hy.1 (by omega)
  · rw [hx.2.2.2, hy.2.2] at h; exact absurd e3 (nd y _ hy.1 h.symm)
  · rw [hx.2.2, hy.2] at h; exact absurd e1 (nd x _ hx.1 h)
  · rw [hx.2.2, hy.2.2.2] at h; exact absurd e2 (nd x _ hx.1 h)
  · rw [hx.2.2, hy.2.2.2] at h; exact absurd e3 (nd x _ hx.1 h)
  · rw [if_neg (by simp [hx]), if_neg (by simp [hy])]
    rw [hx.2.2, hy.2.2] at h
    exact hr.injective x y hx.1 hy.1 h

theorem int_ne_float {repr : FloatRepr} (hr : repr.Lawful) (i : Int) (x : PyFloat) : intRepr i ≠ floatStr repr x := by
  intro h
  have hi := intRepr_chars i
  have key : ∃ c ∈ floatStr repr x, isDigit c = false ∧ c ≠ 45 := by
    rcases floatStr_cases (repr := repr) x with hx | hx | hx | hx
    · rw [hx.2]; exact ⟨78, by decide, by decide⟩
    · rw [hx.2.2.2]; exact ⟨110, by decide, by decide⟩
    · rw [hx.2.2.2]; exact ⟨110, by decide, by decide⟩
    · rw [hx.2.2]
      obtain ⟨c, hc, hm⟩ := hr.mark x hx.1
      refine ⟨c, hc, ?_⟩
      rcases hm with rfl | rfl <;> decide
  obtain ⟨c, hc, h1, h2⟩ := key
  rw [← h] at hc
  rcases hi c hc with h' | h'
  · rw [h'] at h1; cases h1
  · exact h2 h'

theorem null_ne_int (i : Int) : lit "null" ≠ intRepr i := by
  intro h
  rcases intRepr_chars i 110 (by rw [← h]; decide) with h | h <;> revert h <;> decide

theorem null_ne_float {repr : FloatRepr} (hr : repr.Lawful) (x : PyFloat) : lit "null" ≠ floatStr repr x := by
  intro h
  rcases floatStr_cases (repr := repr) x with hx | hx | hx | hx
  · rw [hx.2] at h; revert h; decide
  · rw [hx.2.2.2] at h; revert h; decide
  · rw [hx.2.2.2] at h; revert h; decide
  · rw [hx.2.2] at h
    have := hr.chars x hx.1 110 (by rw [← h]; decide)
    revert this; decide

theorem int_noDelim (i : Int) : NoDelim (intRepr i) := by
  intro c hc
  have := intRepr_chars i c hc
  simp only [isDigit, Bool.and_eq_true, decide_eq_true_eq] at this
  omega

theorem null_noDelim : NoDelim (lit "null") := by unfold NoDelim; decide

/-! ## trees -/

theorem delim_elems (repr : FloatRepr) (l : Nat) (ts : List PyTree) (r : PyStr) : Delim (encodeElems repr l ts ++ r) := by
  intro c cs h
  cases ts with
  | nil => simp only [encodeElems, newlineIndent, List.cons_append, List.cons.injEq] at h; exact .inr h.1.symm
  | cons t ts => simp only [encodeElems, lit] at h; exact .inl (List.cons.inj h).1.symm

theorem delim_items (repr : FloatRepr) (l : Nat) (ts : List (PyStr × PyTree)) (r : PyStr) : Delim (encodeItems repr l ts ++ r) := by
  intro c cs h
  cases ts with
  | nil => simp only [encodeItems, newlineIndent, List.cons_append, List.cons.injEq] at h; exact .inr h.1.symm
  | cons t ts => simp only [encodeItems, lit] at h; exact .inl (List.cons.inj h).1.symm

theorem list_nil_ne (repr : FloatRepr) (l : Nat) (x : PyTree) (xs : List PyTree) (r r' : PyStr) :
    encode repr l (.list []) ++ r ≠ encode repr l (.list (x :: xs)) ++ r' := by
  intro h
  simp only [encode] at h
  exact absurd (List.cons.inj (List.cons.inj h).2).1 (by decide)

theorem dict_nil_ne (repr : FloatRepr) (l : Nat) (x : PyStr × PyTree) (xs : List (PyStr × PyTree)) (r r' : PyStr) :
    encode repr l (.dict []) ++ r ≠ encode repr l (.dict (x :: xs)) ++ r' := by
  intro h
  simp only [encode] at h
  exact absurd (List.cons.inj (List.cons.inj h).2).1 (by decide)

mutual
theorem encode_inj {repr : FloatRepr} (hr : repr.Lawful) (l : Nat) : (t t' : PyTree) → t.Texts → t'.Texts → (r r' : PyStr) →
    Delim r → Delim r' → encode repr l t ++ r = encode repr l t' ++ r' → t.forgetNaN = t'.forgetNaN ∧ r = r'
  | .none, t', _, _, r, r', d, d', h => by
    have k := kind_eq hr h
    cases t' with
    | none => exact ⟨rfl, (token_split null_noDelim null_noDelim d d' h).2⟩
    | int i => exact absurd (token_split null_noDelim (int_noDelim i) d d' h).1 (null_ne_int i)
    | float x => exact absurd (token_split null_noDelim (floatStr_noDelim hr x) d d' h).1 (null_ne_float hr x)
    | _ => cases k
  | .int i, t', _, _, r, r', d, d', h => by
    have k := kind_eq hr h
    cases t' with
    | none => exact absurd (token_split (int_noDelim i) null_noDelim d d' h).1.symm (null_ne_int i)
    | int j =>
      have := token_split (int_noDelim i) (int_noDelim j) d d' h
      exact ⟨by rw [intRepr_inj this.1], this.2⟩
    | float x => exact absurd (token_split (int_noDelim i) (floatStr_noDelim hr x) d d' h).1 (int_ne_float hr i x)
    | _ => cases k
  | .float x, t', _, _, r, r', d, d', h => by
    have k := kind_eq hr h
    cases t' with
    | none => exact absurd (token_split (floatStr_noDelim hr x) null_noDelim d d' h).1.symm (null_ne_float hr x)
    | int j => exact absurd (token_split (floatStr_noDelim hr x) (int_noDelim j) d d' h).1.symm (int_ne_float hr j x)
    | float y =>
      have := token_split (floatStr_noDelim hr x) (floatStr_noDelim hr y) d d' h
      exact ⟨by simp only [forgetNaN, floatStr_inj hr this.1], this.2⟩
    | _ => cases k
  | .str s, t', ht, ht', r, r', d, d', h => by
    have k := kind_eq hr h
    cases t' with
    | str s' =>
      have := encodeStr_inj ht ht' h
      exact ⟨by rw [this.1], this.2⟩
    | _ => cases k
  | .list [], t', ht, ht', r, r', d, d', h => by
    have k := kind_eq hr h
    cases t' with
    | list l' =>
      cases l' with
      | nil => exact ⟨rfl, by simpa [encode] using h⟩
      | cons x xs => exact absurd h (list_nil_ne repr l x xs r r')
    | _ => cases k
  | .list (t :: ts), t', ht, ht', r, r', d, d', h => by
    have k := kind_eq hr h
    cases t' with
    | list l' =>
      cases l' with
      | nil => exact absurd h.symm (list_nil_ne repr l t ts r' r)
      | cons x xs =>
        simp only [encode, List.append_assoc, List.append_cancel_left_eq] at h
        have ht : t.Texts ∧ TextsAll ts := ht
        have ht' : x.Texts ∧ TextsAll xs := ht'
        have h1 := encode_inj hr (l + 1) t x ht.1 ht'.1 _ _ (delim_elems _ _ _ _) (delim_elems _ _ _ _) h
        have h2 := encodeElems_inj hr l ts xs ht.2 ht'.2 r r' h1.2
        exact ⟨by simp only [forgetNaN, forgetNaNs, h1.1, h2.1], h2.2⟩
    | _ => cases k
  | .dict [], t', ht, ht', r, r', d, d', h => by
    have k := kind_eq hr h
    cases t' with
    | dict l' =>
      cases l' with
      | nil => exact ⟨rfl, by simpa [encode] using h⟩
      | cons x xs => exact absurd h (dict_nil_ne repr l x xs r r')
    | _ => cases k
  | .dict ((key, t) :: ts), t', ht, ht', r, r', d, d', h => by
    have k := kind_eq hr h
    cases t' with
    | dict l' =>
      cases l' with
      | nil => exact absurd h.symm (dict_nil_ne repr l (key, t) ts r' r)
      | cons x xs =>
        cases x with | mk key' x =>
        simp only [encode, List.append_assoc, List.append_cancel_left_eq] at h
        have ht : Text key ∧ t.Texts ∧ TextsItems ts := ht
        have ht' : Text key' ∧ x.Texts ∧ TextsItems xs := ht'
        have h0 := encodeStr_inj ht.1 ht'.1 h
        have h1 := encode_inj hr (l + 1) t x ht.2.1 ht'.2.1 _ _ (delim_items _ _ _ _) (delim_items _ _ _ _)
          (List.append_cancel_left h0.2)
        have h2 := encodeItems_inj hr l ts xs ht.2.2 ht'.2.2 r r' h1.2
        exact ⟨by simp only [forgetNaN, forgetNaNItems, h0.1, h1.1, h2.1], h2.2⟩
    | _ => cases k
theorem encodeElems_inj {repr : FloatRepr} (hr : repr.Lawful) (l : Nat) : (ts ts' : List PyTree) → TextsAll ts → TextsAll ts' →
    (r r' : PyStr) → encodeElems repr l ts ++ r = encodeElems repr l ts' ++ r' → forgetNaNs ts = forgetNaNs ts' ∧ r = r'
  | [], ts', _, _, r, r', h => by
    cases ts' with
    | nil => exact ⟨rfl, List.append_cancel_left h⟩
    | cons x xs =>
      simp only [encodeElems, newlineIndent] at h
      exact absurd (List.cons.inj h).1 (by decide)
  | t :: ts, ts', ht, ht', r, r', h => by
    cases ts' with
    | nil =>
      simp only [encodeElems, newlineIndent] at h
      exact absurd (List.cons.inj h).1 (by decide)
    | cons x xs =>
      simp only [encodeElems, List.append_assoc, List.append_cancel_left_eq] at h
      have ht : t.Texts ∧ TextsAll ts := ht
      have ht' : x.Texts ∧ TextsAll xs := ht'
      have h1 := encode_inj hr (l + 1) t x ht.1 ht'.1 _ _ (delim_elems _ _ _ _) (delim_elems _ _ _ _) h
      have h2 := encodeElems_inj hr l ts xs ht.2 ht'.2 r r' h1.2
      exact ⟨by simp only [forgetNaNs, h1.1, h2.1], h2.2⟩
theorem encodeItems_inj {repr : FloatRepr} (hr : repr.Lawful) (l : Nat) : (ts ts' : List (PyStr × PyTree)) → TextsItems ts → TextsItems ts' →
    (r r' : PyStr) → encodeItems repr l ts ++ r = encodeItems repr l ts' ++ r' → forgetNaNItems ts = forgetNaNItems ts' ∧ r = r'
  | [], ts', _, _, r, r', h => by
    cases ts' with
    | nil => exact ⟨rfl, List.append_cancel_left h⟩
    | cons x xs =>
      simp only [encodeItems, newlineIndent] at h
      exact absurd (List.cons.inj h).1 (by decide)
  | (key, t) :: ts, ts', ht, ht', r, r', h => by
    cases ts' with
    | nil =>
      simp only [encodeItems, newlineIndent] at h
      exact absurd (List.cons.inj h).1 (by decide)
    | cons x xs =>
      cases x with | mk key' x =>
      simp only [encodeItems, List.append_assoc, List.append_cancel_left_eq] at h
      have ht : Text key ∧ t.Texts ∧ TextsItems ts := ht
      have ht' : Text key' ∧ x.Texts ∧ TextsItems xs := ht'
      have h0 := encodeStr_inj ht.1 ht'.1 h
      have h1 := encode_inj hr (l + 1) t x ht.2.1 ht'.2.1 _ _ (delim_items _ _ _ _) (delim_items _ _ _ _)
        (List.append_cancel_left h0.2)
      have h2 := encodeItems_inj hr l ts xs ht.2.2 ht'.2.2 r r' h1.2
      exact ⟨by simp only [forgetNaNItems, h0.1, h1.1, h2.1], h2.2⟩
end

/-! the text only depends on the tree up to NaNs -/

theorem floatStr_forget {repr : FloatRepr} (x : PyFloat) : floatStr repr (if F.isNaN x then theNaN else x) = floatStr repr x := by
  by_cases h : F.isNaN x = true
  · rw [if_pos h]
    have : F.isNaN theNaN = true := by decide +kernel
    simp [floatStr, h, this]
  · rw [if_neg h]

mutual
theorem encode_forget (repr : FloatRepr) (l : Nat) : (t : PyTree) → encode repr l t.forgetNaN = encode repr l t
  | .none => rfl
  | .int i => rfl
  | .float x => floatStr_forget x
  | .str s => rfl
  | .list [] => rfl
  | .list (t :: ts) => by
    simp only [forgetNaN, forgetNaNs, encode, encode_forget repr (l + 1) t, encodeElems_forget repr l ts]
  | .dict [] => rfl
  | .dict ((k, t) :: ts) => by
    simp only [forgetNaN, forgetNaNItems, encode, encode_forget repr (l + 1) t, encodeItems_forget repr l ts]
theorem encodeElems_forget (repr : FloatRepr) (l : Nat) : (ts : List PyTree) →
    encodeElems repr l (forgetNaNs ts) = encodeElems repr l ts
  | [] => rfl
  | t :: ts => by simp only [forgetNaNs, encodeElems, encode_forget repr (l + 1) t, encodeElems_forget repr l ts]
theorem encodeItems_forget (repr : FloatRepr) (l : Nat) : (ts : List (PyStr × PyTree)) →
    encodeItems repr l (forgetNaNItems ts) = encodeItems repr l ts
  | [] => rfl
  | (k, t) :: ts => by simp only [forgetNaNItems, encodeItems, encode_forget repr (l + 1) t, encodeItems_forget repr l ts]
end

theorem dumps_eq_iff {repr : FloatRepr} (hr : repr.Lawful) {t t' : PyTree} (ht : t.Texts) (ht' : t'.Texts) :
    dumps repr t = dumps repr t' ↔ t.forgetNaN = t'.forgetNaN := by
  constructor
  · intro h
    exact (encode_inj hr 0 t t' ht ht' [] [] (fun _ _ h => by cases h) (fun _ _ h => by cases h) (by simpa [dumps] using h)).1
  · intro h
    simp only [dumps]
    rw [← encode_forget repr 0 t, h, encode_forget]

mutual
theorem forget_of_NaNFree : (t : PyTree) → t.NaNFree → t.forgetNaN = t
  | .none, _ => rfl
  | .int _, _ => rfl
  | .float x, h => by simp only [NaNFree] at h; simp [forgetNaN, h]
  | .str _, _ => rfl
  | .list l, h => by simp only [NaNFree] at h; simp only [forgetNaN, forgets_of_NaNFree l h]
  | .dict l, h => by simp only [NaNFree] at h; simp only [forgetNaN, forgetItems_of_NaNFree l h]
theorem forgets_of_NaNFree : (ts : List PyTree) → NaNFrees ts → forgetNaNs ts = ts
  | [], _ => rfl
  | t :: ts, h => by
    simp only [NaNFrees] at h
    simp only [forgetNaNs, forget_of_NaNFree t h.1, forgets_of_NaNFree ts h.2]
theorem forgetItems_of_NaNFree : (ts : List (PyStr × PyTree)) → NaNFreeItems ts → forgetNaNItems ts = ts
  | [], _ => rfl
  | (k, t) :: ts, h => by
    simp only [NaNFreeItems] at h
    simp only [forgetNaNItems, forget_of_NaNFree t h.1, forgetItems_of_NaNFree ts h.2]
end

/-- The output is plain ASCII. -/
theorem escapeChar_ascii (c : Nat) : ∀ x ∈ escapeChar c, 32 ≤ x ∧ x ≤ 126 := by
  have hex : ∀ n, n < 16 → 32 ≤ hexDigit n ∧ hexDigit n ≤ 126 := by intro n h; unfold hexDigit; split <;> omega
  have u : ∀ n, ∀ x ∈ uEscape n, 32 ≤ x ∧ x ≤ 126 := by
    intro n x hx
    simp only [uEscape, List.mem_cons, List.not_mem_nil, or_false] at hx
    rcases hx with rfl | rfl | rfl | rfl | rfl | rfl
    · decide
    · decide
    all_goals exact hex _ (Nat.mod_lt _ (by decide))
  intro x hx
  unfold escapeChar at hx
  split at hx
  · revert x; decide
  split at hx
  · revert x; decide
  split at hx
  · revert x; decide
  split at hx
  · revert x; decide
  split at hx
  · revert x; decide
  split at hx
  · revert x; decide
  split at hx
  · revert x; decide
  split at hx
  · simp only [List.mem_singleton] at hx; omega
  split at hx
  · exact u _ x hx
  · rw [List.mem_append] at hx
    rcases hx with hx | hx <;> exact u _ x hx

/-- Line feeds and printable ASCII characters. -/
def Ascii (s : PyStr) : Prop := ∀ c ∈ s, c = 10 ∨ (32 ≤ c ∧ c ≤ 126)

theorem Ascii.append {a b : PyStr} (ha : Ascii a) (hb : Ascii b) : Ascii (a ++ b) := by
  intro c hc
  rw [List.mem_append] at hc
  exact hc.elim (ha c) (hb c)

theorem ascii_str (s : PyStr) : Ascii (encodeStr s) := by
  intro c hc
  simp only [encodeStr, List.mem_cons, List.mem_append, List.mem_flatMap, List.not_mem_nil, or_false] at hc
  rcases hc with rfl | ⟨x, _, hx⟩ | rfl
  · exact .inr (by decide)
  · exact .inr (escapeChar_ascii x c hx)
  · exact .inr (by decide)

theorem ascii_newline (l : Nat) : Ascii (newlineIndent l) := by
  intro c hc
  simp only [newlineIndent, List.mem_cons, List.mem_replicate] at hc
  omega

theorem ascii_lit {s : PyStr} (h : (s.all fun c => decide (c = 10) || (decide (32 ≤ c) && decide (c ≤ 126))) = true) : Ascii s := by
  intro c hc
  simpa using (List.all_eq_true.1 h) c hc

theorem ascii_float {repr : FloatRepr} (hr : repr.Lawful) (x : PyFloat) : Ascii (floatStr repr x) := by
  rcases floatStr_cases (repr := repr) x with h | h | h | h
  · rw [h.2]; exact ascii_lit (by decide)
  · rw [h.2.2.2]; exact ascii_lit (by decide)
  · rw [h.2.2.2]; exact ascii_lit (by decide)
  · rw [h.2.2]
    intro c hc
    have := hr.chars x h.1 c hc
    simp only [isDigit, Bool.and_eq_true, decide_eq_true_eq] at this
    omega

theorem ascii_int (i : Int) : Ascii (intRepr i) := by
  intro c hc
  have := intRepr_chars i c hc
  simp only [isDigit, Bool.and_eq_true, decide_eq_true_eq] at this
  omega

mutual
theorem encode_ascii {repr : FloatRepr} (hr : repr.Lawful) (l : Nat) : (t : PyTree) → Ascii (encode repr l t)
  | .none => by simp only [encode]; exact ascii_lit (by decide)
  | .int i => ascii_int i
  | .float x => ascii_float hr x
  | .str s => ascii_str s
  | .list [] => by simp only [encode]; exact ascii_lit (by decide)
  | .list (t :: ts) => by
    simp only [encode]
    exact (ascii_lit (by decide)).append ((ascii_newline _).append ((encode_ascii hr _ t).append (encodeElems_ascii hr _ ts)))
  | .dict [] => by simp only [encode]; exact ascii_lit (by decide)
  | .dict ((k, t) :: ts) => by
    simp only [encode]
    exact (ascii_lit (by decide)).append ((ascii_newline _).append ((ascii_str _).append
      ((ascii_lit (by decide)).append ((encode_ascii hr _ t).append (encodeItems_ascii hr _ ts)))))
theorem encodeElems_ascii {repr : FloatRepr} (hr : repr.Lawful) (l : Nat) : (ts : List PyTree) → Ascii (encodeElems repr l ts)
  | [] => by simp only [encodeElems]; exact (ascii_newline _).append (ascii_lit (by decide))
  | t :: ts => by
    simp only [encodeElems]
    exact (ascii_lit (by decide)).append ((ascii_newline _).append ((encode_ascii hr _ t).append (encodeElems_ascii hr _ ts)))
theorem encodeItems_ascii {repr : FloatRepr} (hr : repr.Lawful) (l : Nat) : (ts : List (PyStr × PyTree)) → Ascii (encodeItems repr l ts)
  | [] => by simp only [encodeItems]; exact (ascii_newline _).append (ascii_lit (by decide))
  | (k, t) :: ts => by
    simp only [encodeItems]
    exact (ascii_lit (by decide)).append ((ascii_newline _).append ((ascii_str _).append
      ((ascii_lit (by decide)).append ((encode_ascii hr _ t).append (encodeItems_ascii hr _ ts)))))
end

end Genie.Json
