import Verif.Spec.Utf8
import Verif.Proof.Utf8
/-!
# Decoding succeeds exactly on well-formed UTF-8
-/

namespace Genie

theorem wellFormed_nil : WellFormedUtf8 [] := ⟨[], rfl, by simp⟩

theorem wellFormed_cons {c bs : Bytes} (h1 : Utf8Char c) (h2 : WellFormedUtf8 bs) : WellFormedUtf8 (c ++ bs) := by
  obtain ⟨cs, rfl, h⟩ := h2
  exact ⟨c :: cs, rfl, by simpa using ⟨h1, h⟩⟩

private theorem ofNat_toNat {b : UInt8} {n : Nat} (hn : n < 256) (h : b.toNat = n) : b = UInt8.ofNat n := by
  apply UInt8.toNat_inj.1
  simp only [UInt8.toNat_ofNat', h]; omega

private theorem le_of {n : Nat} {b m : UInt8} (hm : m.toNat = n) (h : n ≤ b.toNat) : m ≤ b := by
  rw [UInt8.le_iff_toNat_le, hm]; exact h
private theorem ge_of {n : Nat} {b m : UInt8} (hm : m.toNat = n) (h : b.toNat ≤ n) : b ≤ m := by
  rw [UInt8.le_iff_toNat_le, hm]; exact h
private theorem of_le {n : Nat} {b m : UInt8} (hm : m.toNat = n) (h : m ≤ b) : n ≤ b.toNat := by
  rw [UInt8.le_iff_toNat_le, hm] at h; exact h
private theorem of_ge {n : Nat} {b m : UInt8} (hm : m.toNat = n) (h : b ≤ m) : b.toNat ≤ n := by
  rw [UInt8.le_iff_toNat_le, hm] at h; exact h

theorem isCont_false (b : UInt8) : ¬ isCont b = false ↔ 128 ≤ b.toNat ∧ b.toNat ≤ 191 := by
  unfold isCont
  simp only [Bool.and_eq_false_iff, decide_eq_false_iff_not]
  omega

theorem wellFormed_of_decode {bs : Bytes} {s : PyStr} (h : strDecode bs = .ok s) : WellFormedUtf8 bs := by
  fun_induction strDecode bs generalizing s
  case case1 => exact wellFormed_nil
  all_goals first
    | (simp at h; done)
    | skip
  case case2 b0 rest h0 s0 e ih =>
    exact wellFormed_cons (.r1 (ge_of (n := 127) rfl (by omega))) (ih e)
  case case6 b0 h0 b1 rest h1 h2 s0 e ih =>
    rw [isCont_false] at h1
    exact wellFormed_cons (.r2 (le_of (n := 194) rfl (by omega)) (ge_of (n := 223) rfl (by omega)) (le_of (n := 128) rfl (by omega))
      (ge_of (n := 191) rfl (by omega))) (ih e)
  case case10 b0 h0 b1 h1 h2 b2 rest h3 h4 c h5 s0 e ih =>
    rw [isCont_false] at h1 h3
    rw [isScalar_iff] at h5
    unfold IsScalar at h5
    refine wellFormed_cons (c := [b0, b1, b2]) ?_ (ih e)
    have b2l : 0x80 ≤ b2 := le_of (n := 128) rfl (by omega)
    have b2u : b2 ≤ 0xBF := ge_of (n := 191) rfl (by omega)
    by_cases k1 : b0.toNat = 224
    · rw [ofNat_toNat (by omega) k1]
      exact .r3 (le_of (n := 160) rfl (by omega)) (ge_of (n := 191) rfl (by omega)) b2l b2u
    by_cases k2 : b0.toNat = 237
    · rw [ofNat_toNat (by omega) k2]
      exact .r5 (le_of (n := 128) rfl (by omega)) (ge_of (n := 159) rfl (by omega)) b2l b2u
    by_cases k3 : b0.toNat ≤ 236
    · exact .r4 (le_of (n := 225) rfl (by omega)) (ge_of (n := 236) rfl (by omega)) (le_of (n := 128) rfl (by omega))
        (ge_of (n := 191) rfl (by omega)) b2l b2u
    · exact .r6 (le_of (n := 238) rfl (by omega)) (ge_of (n := 239) rfl (by omega)) (le_of (n := 128) rfl (by omega))
        (ge_of (n := 191) rfl (by omega)) b2l b2u
  case case15 b0 h0 b1 h1 h2 b2 h3 h4 b3 rest h5 h6 c h7 s0 e ih =>
    rw [isCont_false] at h1 h3 h5
    refine wellFormed_cons (c := [b0, b1, b2, b3]) ?_ (ih e)
    have b2l : 0x80 ≤ b2 := le_of (n := 128) rfl (by omega)
    have b2u : b2 ≤ 0xBF := ge_of (n := 191) rfl (by omega)
    have b3l : 0x80 ≤ b3 := le_of (n := 128) rfl (by omega)
    have b3u : b3 ≤ 0xBF := ge_of (n := 191) rfl (by omega)
    by_cases k1 : b0.toNat = 240
    · rw [ofNat_toNat (by omega) k1]
      exact .r7 (le_of (n := 144) rfl (by omega)) (ge_of (n := 191) rfl (by omega)) b2l b2u b3l b3u
    by_cases k2 : b0.toNat = 244
    · rw [ofNat_toNat (by omega) k2]
      exact .r9 (le_of (n := 128) rfl (by omega)) (ge_of (n := 143) rfl (by omega)) b2l b2u b3l b3u
    · exact .r8 (le_of (n := 241) rfl (by omega)) (ge_of (n := 243) rfl (by omega)) (le_of (n := 128) rfl (by omega))
        (ge_of (n := 191) rfl (by omega)) b2l b2u b3l b3u

theorem decode1 {a : UInt8} (h : a.toNat ≤ 127) {bs : Bytes} {s : PyStr} (hs : strDecode bs = .ok s) :
    ∃ t, strDecode (a :: bs) = .ok t := by
  rw [strDecode.eq_def]
  simp only
  rw [if_pos (by omega), hs]
  exact ⟨_, rfl⟩

theorem decode2 {a b : UInt8} (h1 : 194 ≤ a.toNat) (h2 : a.toNat ≤ 223) (h3 : 128 ≤ b.toNat) (h4 : b.toNat ≤ 191) {bs : Bytes} {s : PyStr}
    (hs : strDecode bs = .ok s) : ∃ t, strDecode (a :: b :: bs) = .ok t := by
  rw [strDecode.eq_def]
  simp only
  rw [if_neg (by omega), if_neg ((isCont_false b).2 ⟨h3, h4⟩), if_pos (by omega), hs]
  exact ⟨_, rfl⟩

theorem decode3 {a b c : UInt8} (h1 : 224 ≤ a.toNat) (h2 : a.toNat ≤ 239) (h3 : 128 ≤ b.toNat) (h4 : b.toNat ≤ 191)
    (h5 : 128 ≤ c.toNat) (h6 : c.toNat ≤ 191) (h7 : a.toNat = 224 → 160 ≤ b.toNat) (h8 : a.toNat = 237 → b.toNat ≤ 159)
    {bs : Bytes} {s : PyStr} (hs : strDecode bs = .ok s) : ∃ t, strDecode (a :: b :: c :: bs) = .ok t := by
  rw [strDecode.eq_def]
  simp only
  rw [if_neg (by omega), if_neg ((isCont_false b).2 ⟨h3, h4⟩), if_neg (by omega), if_neg ((isCont_false c).2 ⟨h5, h6⟩), if_pos (by omega),
    if_pos ⟨by omega, (isScalar_iff _).2 (by unfold IsScalar; omega)⟩, hs]
  exact ⟨_, rfl⟩

theorem decode4 {a b c d : UInt8} (h1 : 240 ≤ a.toNat) (h2 : a.toNat ≤ 244) (h3 : 128 ≤ b.toNat) (h4 : b.toNat ≤ 191)
    (h5 : 128 ≤ c.toNat) (h6 : c.toNat ≤ 191) (h5' : 128 ≤ d.toNat) (h6' : d.toNat ≤ 191)
    (h7 : a.toNat = 240 → 144 ≤ b.toNat) (h8 : a.toNat = 244 → b.toNat ≤ 143)
    {bs : Bytes} {s : PyStr} (hs : strDecode bs = .ok s) : ∃ t, strDecode (a :: b :: c :: d :: bs) = .ok t := by
  rw [strDecode.eq_def]
  simp only
  rw [if_neg (by omega), if_neg ((isCont_false b).2 ⟨h3, h4⟩), if_neg (by omega), if_neg ((isCont_false c).2 ⟨h5, h6⟩), if_neg (by omega),
    if_neg ((isCont_false d).2 ⟨h5', h6'⟩), if_pos (by omega), if_pos (by omega), hs]
  exact ⟨_, rfl⟩

theorem decode_char {c bs : Bytes} (h : Utf8Char c) {s : PyStr} (hs : strDecode bs = .ok s) : ∃ t, strDecode (c ++ bs) = .ok t := by
  cases h with
  | r1 h => exact decode1 (of_ge rfl h) hs
  | r2 h1 h2 h3 h4 => exact decode2 (of_le rfl h1) (of_ge rfl h2) (of_le rfl h3) (of_ge rfl h4) hs
  | r3 h1 h2 h3 h4 =>
    have := of_le (n := 160) rfl h1
    exact decode3 (by decide) (by decide) (by omega) (of_ge rfl h2) (of_le rfl h3) (of_ge rfl h4) (fun _ => this) (by simp) hs
  | r4 h1 h2 h3 h4 h5 h6 =>
    have := of_le (n := 225) rfl h1
    have := of_ge (n := 236) rfl h2
    exact decode3 (by omega) (by omega) (of_le rfl h3) (of_ge rfl h4) (of_le rfl h5) (of_ge rfl h6) (by omega) (by omega) hs
  | r5 h1 h2 h3 h4 =>
    have := of_ge (n := 159) rfl h2
    exact decode3 (by decide) (by decide) (of_le rfl h1) (by omega) (of_le rfl h3) (of_ge rfl h4) (by simp) (fun _ => this) hs
  | r6 h1 h2 h3 h4 h5 h6 =>
    have := of_le (n := 238) rfl h1
    have := of_ge (n := 239) rfl h2
    exact decode3 (by omega) (by omega) (of_le rfl h3) (of_ge rfl h4) (of_le rfl h5) (of_ge rfl h6) (by omega) (by omega) hs
  | r7 h1 h2 h3 h4 h5 h6 =>
    have := of_le (n := 144) rfl h1
    exact decode4 (by decide) (by decide) (by omega) (of_ge rfl h2) (of_le rfl h3) (of_ge rfl h4) (of_le rfl h5) (of_ge rfl h6)
      (fun _ => this) (by simp) hs
  | r8 h1 h2 h3 h4 h5 h6 h7 h8 =>
    have := of_le (n := 241) rfl h1
    have := of_ge (n := 243) rfl h2
    exact decode4 (by omega) (by omega) (of_le rfl h3) (of_ge rfl h4) (of_le rfl h5) (of_ge rfl h6) (of_le rfl h7) (of_ge rfl h8)
      (by omega) (by omega) hs
  | r9 h1 h2 h3 h4 h5 h6 =>
    have := of_ge (n := 143) rfl h2
    exact decode4 (by decide) (by decide) (of_le rfl h1) (by omega) (of_le rfl h3) (of_ge rfl h4) (of_le rfl h5) (of_ge rfl h6)
      (by simp) (fun _ => this) hs

theorem decode_of_wellFormed {bs : Bytes} (h : WellFormedUtf8 bs) : ∃ s, strDecode bs = .ok s := by
  obtain ⟨cs, rfl, h⟩ := h
  induction cs with
  | nil => exact ⟨[], rfl⟩
  | cons c cs ih =>
    obtain ⟨s, hs⟩ := ih fun d hd => h d (List.mem_cons_of_mem _ hd)
    exact decode_char (h c List.mem_cons_self) hs

theorem strDecode_error_iff (bs : Bytes) (e : PyErr) : strDecode bs = .error e ↔ e = .unicodeDecodeError ∧ ¬ WellFormedUtf8 bs := by
  constructor
  · intro h
    refine ⟨strDecode_error h, fun hw => ?_⟩
    obtain ⟨s, hs⟩ := decode_of_wellFormed hw
    rw [h] at hs; cases hs
  · rintro ⟨rfl, h⟩
    cases hd : strDecode bs with
    | ok s => exact absurd (wellFormed_of_decode hd) h
    | error e => rw [strDecode_error hd]

end Genie
