import Verif.Py.Utf8
import Verif.Spec.Strings
/-! # Lemmas about UTF-8 -/

namespace Genie

theorem isScalar_iff (c : Nat) : isScalar c = true ↔ IsScalar c := by
  simp [isScalar, IsScalar]; omega

theorem encodeCP_length (c : Nat) : (encodeCP c).length =
    if c ≤ 0x7F then 1 else if c ≤ 0x7FF then 2 else if c ≤ 0xFFFF then 3 else 4 := by
  unfold encodeCP
  repeat' split
  all_goals first | rfl | omega

theorem strEncode_ok_iff (s : PyStr) : (∃ bs, strEncode s = .ok bs) ↔ ∀ c ∈ s, IsScalar c := by
  induction s with
  | nil => simp [strEncode]
  | cons c cs ih =>
    rw [List.forall_mem_cons, ← ih, ← isScalar_iff]
    simp only [strEncode]
    cases isScalar c <;> cases strEncode cs <;> simp

theorem strEncode_length {s : PyStr} {bs : Bytes} (h : strEncode s = .ok bs) :
    bs.length = utf8Len s := by
  induction s generalizing bs with
  | nil => simp [strEncode] at h; subst h; rfl
  | cons c cs ih =>
    simp only [strEncode] at h
    split at h
    · split at h
      · rename_i bs' hb
        simp at h; subst h
        simp [encodeCP_length, ih hb, utf8Len]
      · simp at h
    · simp at h

theorem strEncode_error {s : PyStr} {e : PyErr} (h : strEncode s = .error e) :
    e = .unicodeEncodeError := by
  induction s generalizing e with
  | nil => simp [strEncode] at h
  | cons c cs ih =>
    simp only [strEncode] at h
    split at h
    · split at h
      · simp at h
      · rename_i e' he; simp at h; subst h; exact ih he
    · simp at h; exact h.symm

private theorem toNat_ofNat {n : Nat} (h : n < 256) : (UInt8.ofNat n).toNat = n := by
  simp; omega

theorem strDecode_encodeCP {c : Nat} (h : isScalar c = true) (rest : Bytes) :
    strDecode (encodeCP c ++ rest) =
      match strDecode rest with
      | .ok s => .ok (c :: s)
      | .error e => .error e := by
  have hs : c < 0xD800 ∨ (0xE000 ≤ c ∧ c < 0x110000) := by simpa [isScalar] using h
  generalize hr : strDecode rest = r
  unfold encodeCP
  split
  · rename_i h1
    rw [List.singleton_append, strDecode.eq_def]
    simp only []
    rw [if_pos (by rw [toNat_ofNat (by omega)]; exact h1),
      toNat_ofNat (by omega), hr]
    cases r <;> rfl
  · split
    · rename_i h0 h1
      have e0 : (UInt8.ofNat (0xC0 + c / 64)).toNat = 0xC0 + c / 64 := toNat_ofNat (by omega)
      have e1 : (UInt8.ofNat (0x80 + c % 64)).toNat = 0x80 + c % 64 := toNat_ofNat (by omega)
      have c1 : isCont (UInt8.ofNat (0x80 + c % 64)) = true := by simp only [isCont, e1, Bool.and_eq_true, decide_eq_true_eq]; omega
      simp only [List.cons_append, List.nil_append]
      unfold strDecode
      simp only [e0, e1, c1, Bool.true_eq_false, if_false]
      rw [if_neg (by omega), if_pos (by omega)]
      have : (0xC0 + c / 64 - 0xC0) * 64 + (0x80 + c % 64 - 0x80) = c := by omega
      rw [this, hr]
      cases r <;> rfl
    · split
      · rename_i h0 h1 h2
        have e0 : (UInt8.ofNat (0xE0 + c / 4096)).toNat = 0xE0 + c / 4096 := toNat_ofNat (by omega)
        have e1 : (UInt8.ofNat (0x80 + c / 64 % 64)).toNat = 0x80 + c / 64 % 64 := toNat_ofNat (by omega)
        have e2 : (UInt8.ofNat (0x80 + c % 64)).toNat = 0x80 + c % 64 := toNat_ofNat (by omega)
        have c1 : isCont (UInt8.ofNat (0x80 + c / 64 % 64)) = true := by simp only [isCont, e1, Bool.and_eq_true, decide_eq_true_eq]; omega
        have c2 : isCont (UInt8.ofNat (0x80 + c % 64)) = true := by simp only [isCont, e2, Bool.and_eq_true, decide_eq_true_eq]; omega
        simp only [List.cons_append, List.nil_append]
        unfold strDecode
        simp only [e0, e1, e2, c1, c2, Bool.true_eq_false, if_false]
        rw [if_neg (by omega), if_neg (by omega), if_pos (by omega)]
        have : (0xE0 + c / 4096 - 0xE0) * 4096 + (0x80 + c / 64 % 64 - 0x80) * 64 + (0x80 + c % 64 - 0x80) = c := by omega
        rw [this, if_pos ⟨by omega, h⟩, hr]
        cases r <;> rfl
      · rename_i h0 h1 h2
        have e0 : (UInt8.ofNat (0xF0 + c / 262144)).toNat = 0xF0 + c / 262144 := toNat_ofNat (by omega)
        have e1 : (UInt8.ofNat (0x80 + c / 4096 % 64)).toNat = 0x80 + c / 4096 % 64 := toNat_ofNat (by omega)
        have e2 : (UInt8.ofNat (0x80 + c / 64 % 64)).toNat = 0x80 + c / 64 % 64 := toNat_ofNat (by omega)
        have e3 : (UInt8.ofNat (0x80 + c % 64)).toNat = 0x80 + c % 64 := toNat_ofNat (by omega)
        have c1 : isCont (UInt8.ofNat (0x80 + c / 4096 % 64)) = true := by simp only [isCont, e1, Bool.and_eq_true, decide_eq_true_eq]; omega
        have c2 : isCont (UInt8.ofNat (0x80 + c / 64 % 64)) = true := by simp only [isCont, e2, Bool.and_eq_true, decide_eq_true_eq]; omega
        have c3 : isCont (UInt8.ofNat (0x80 + c % 64)) = true := by simp only [isCont, e3, Bool.and_eq_true, decide_eq_true_eq]; omega
        simp only [List.cons_append, List.nil_append]
        unfold strDecode
        simp only [e0, e1, e2, e3, c1, c2, c3, Bool.true_eq_false, if_false]
        rw [if_neg (by omega), if_neg (by omega), if_neg (by omega), if_pos (by omega)]
        have : (0xF0 + c / 262144 - 0xF0) * 262144 + (0x80 + c / 4096 % 64 - 0x80) * 4096
            + (0x80 + c / 64 % 64 - 0x80) * 64 + (0x80 + c % 64 - 0x80) = c := by omega
        rw [this, if_pos (by omega), hr]
        cases r <;> rfl

/-- Decoding what was encoded. -/
theorem strDecode_strEncode {s : PyStr} {bs : Bytes} (h : strEncode s = .ok bs) :
    strDecode bs = .ok s := by
  induction s generalizing bs with
  | nil => simp [strEncode] at h; subst h; rfl
  | cons c cs ih =>
    simp only [strEncode] at h
    split at h
    · rename_i hc
      split at h
      · rename_i bs' hb
        simp at h; subst h
        rw [strDecode_encodeCP hc, ih hb]
      · simp at h
    · simp at h

private theorem ofNat_eq {b : UInt8} {n : Nat} (h : n = b.toNat) : UInt8.ofNat n = b := by
  subst h; simp

/-- Encoding what was decoded: UTF-8 decoding loses nothing. -/
theorem strEncode_strDecode {bs : Bytes} {s : PyStr} (h : strDecode bs = .ok s) :
    strEncode s = .ok bs := by
  fun_induction strDecode bs generalizing s
  case case1 => simp at h; subst h; rfl
  all_goals try (simp at h; done)
  case case2 b0 rest h0 s' hs ih =>
    simp at h; subst h
    have hb := b0.toNat_lt
    have hsc : isScalar b0.toNat = true := by rw [isScalar_iff]; unfold IsScalar; omega
    rw [strEncode, if_pos hsc, ih hs]
    simp [encodeCP, h0]
  all_goals
    simp only [Except.ok.injEq] at h
    subst h
  case case6 b0 h0 b1 rest c1 r0 s' hs ih =>
    simp only [isCont, Bool.not_eq_false, Bool.and_eq_true, decide_eq_true_eq] at c1
    have hsc : isScalar ((b0.toNat - 0xC0) * 64 + (b1.toNat - 0x80)) = true := by
      rw [isScalar_iff]; unfold IsScalar; omega
    rw [strEncode, if_pos hsc, ih hs]
    unfold encodeCP
    rw [if_neg (by omega), if_pos (by omega)]
    simp only [List.cons_append, List.nil_append]
    rw [ofNat_eq (b := b0) (by omega), ofNat_eq (b := b1) (by omega)]
  case case10 b0 h0 b1 c1 n0 b2 rest c2 r0 c hc s' hs ih =>
    simp only [isCont, Bool.not_eq_false, Bool.and_eq_true, decide_eq_true_eq] at c1 c2
    have hcd : c = (b0.toNat - 224) * 4096 + (b1.toNat - 128) * 64 + (b2.toNat - 128) := rfl
    clear_value c
    rw [strEncode, if_pos hc.2, ih hs]
    unfold encodeCP
    rw [if_neg (by omega), if_neg (by omega), if_pos (by omega)]
    simp only [List.cons_append, List.nil_append]
    rw [ofNat_eq (b := b0) (by omega), ofNat_eq (b := b1) (by omega), ofNat_eq (b := b2) (by omega)]
  case case15 b0 h0 b1 c1 n0 b2 c2 n1 b3 rest c3 r0 c hc s' hs ih =>
    simp only [isCont, Bool.not_eq_false, Bool.and_eq_true, decide_eq_true_eq] at c1 c2 c3
    have hcd : c = (b0.toNat - 240) * 262144 + (b1.toNat - 128) * 4096 + (b2.toNat - 128) * 64
      + (b3.toNat - 128) := rfl
    clear_value c
    have hsc : isScalar c = true := by rw [isScalar_iff]; unfold IsScalar; omega
    rw [strEncode, if_pos hsc, ih hs]
    unfold encodeCP
    rw [if_neg (by omega), if_neg (by omega), if_neg (by omega)]
    simp only [List.cons_append, List.nil_append]
    rw [ofNat_eq (b := b0) (by omega), ofNat_eq (b := b1) (by omega), ofNat_eq (b := b2) (by omega),
      ofNat_eq (b := b3) (by omega)]

theorem strDecode_error {bs : Bytes} {e : PyErr} (h : strDecode bs = .error e) :
    e = .unicodeDecodeError := by
  fun_induction strDecode bs generalizing e
  all_goals first
    | (simp at h; done)
    | (simp at h; exact h.symm)
    | (rename_i ih; simp at h; subst h; exact ih ‹_›)

/-! ## trailing NULs -/

theorem getLast?_encodeCP (c : Nat) : (encodeCP c).getLast? = some 0 ↔ c % 256 = 0 ∧ c < 0x80 := by
  unfold encodeCP
  repeat' split
  all_goals simp [← UInt8.toNat_inj]
  all_goals omega

theorem getLast?_strEncode {s : PyStr} {bs : Bytes} (h : strEncode s = .ok bs) :
    bs.getLast? = some 0 ↔ s.getLast? = some 0 := by
  induction s generalizing bs with
  | nil => simp [strEncode] at h; subst h; simp
  | cons c cs ih =>
    simp only [strEncode] at h
    split at h
    · split at h
      · rename_i bs' hb
        simp at h; subst h
        cases cs with
        | nil =>
          simp [strEncode] at hb; subst hb
          simp only [List.append_nil, getLast?_encodeCP]
          simp; omega
        | cons d ds =>
          have hne : bs' ≠ [] := by
            intro hn; subst hn
            have := strEncode_length hb
            simp only [utf8Len, List.map_cons, List.sum_cons, List.length_nil] at this
            split at this <;> (try split at this) <;> (try split at this) <;> omega
          have : (encodeCP c ++ bs').getLast? = bs'.getLast? := by
            rw [List.getLast?_append]
            cases hb' : bs'.getLast? with
            | none => rw [List.getLast?_eq_none_iff] at hb'; exact absurd hb' hne
            | some x => rfl
          rw [this, List.getLast?_cons_cons]; exact ih hb
      · simp at h
    · simp at h

theorem rstripNul_eq_self {bs : Bytes} : rstripNul bs = bs ↔ bs.getLast? ≠ some 0 := by
  unfold rstripNul
  rw [List.getLast?_eq_head?_reverse]
  generalize hr : bs.reverse = r
  have : bs = r.reverse := by rw [← hr]; simp
  subst this
  rw [List.reverse_inj]
  cases r with
  | nil => simp
  | cons b r =>
    simp only [List.head?_cons, List.dropWhile_cons, ne_eq, Option.some.injEq]
    by_cases hb : b = 0
    · subst hb
      simp only [beq_self_eq_true, if_true, not_true_eq_false, iff_false]
      intro h
      have h1 := congrArg List.length h
      have h2 := List.IsSuffix.length_le (List.dropWhile_suffix (l := r) (· == (0 : UInt8)))
      simp only [List.length_cons] at h1; omega
    · simp [hb]

theorem rstripNul_getLast? (bs : Bytes) : (rstripNul bs).getLast? ≠ some 0 := by
  unfold rstripNul
  rw [List.getLast?_reverse]
  intro h
  cases hd : List.dropWhile (fun x => x == (0 : UInt8)) bs.reverse with
  | nil => rw [hd] at h; simp at h
  | cons b r =>
    rw [hd] at h; simp at h
    have := List.head?_dropWhile_not (fun x => x == (0 : UInt8)) bs.reverse
    rw [hd] at this; simp at this; exact this h

theorem rstripNul_length_le (bs : Bytes) : (rstripNul bs).length ≤ bs.length := by
  unfold rstripNul
  have := List.IsSuffix.length_le (List.dropWhile_suffix (l := bs.reverse) (· == (0 : UInt8)))
  simpa using this

/-- A byte string is its stripped version followed by NULs. -/
theorem rstripNul_append (bs : Bytes) :
    bs = rstripNul bs ++ List.replicate (bs.length - (rstripNul bs).length) 0 := by
  have h : ∀ r : Bytes, r = List.replicate (r.length - (r.dropWhile (· == 0)).length) 0 ++ r.dropWhile (· == 0) := by
    intro r
    induction r with
    | nil => rfl
    | cons b r ih =>
      have hl := List.IsSuffix.length_le (List.dropWhile_suffix (l := r) (· == (0 : UInt8)))
      by_cases hb : b = 0
      · subst hb
        simp only [List.dropWhile_cons, beq_self_eq_true, if_true, List.length_cons]
        rw [show r.length + 1 - (r.dropWhile (· == 0)).length = (r.length - (r.dropWhile (· == 0)).length) + 1 by omega,
          List.replicate_succ, List.cons_append, ← ih]
      · simp [hb]
  have := congrArg List.reverse (h bs.reverse)
  simp only [List.reverse_reverse, List.reverse_append, List.reverse_replicate, List.length_reverse] at this
  unfold rstripNul
  rw [List.length_reverse]
  exact this

/-- stripping NUL padding -/
theorem rstripNul_append_replicate (bs : Bytes) (n : Nat) :
    rstripNul (bs ++ List.replicate n 0) = rstripNul bs := by
  unfold rstripNul
  rw [List.reverse_append, List.reverse_replicate]
  induction n with
  | zero => rfl
  | succ n ih => rw [List.replicate_succ, List.cons_append, List.dropWhile_cons]; simp

end Genie
