import Verif.Proof.Prims
import Verif.Proof.Api
import Verif.Spec.Strings
/-!
# C06, C07: debug strings and fixed-length strings

`strEncode s` is Python's `s.encode()`.
-/

namespace Genie

/-- The 16-bit little-endian bytes of a length. -/
def u16le (n : Nat) : Bytes := [UInt8.ofNat (n % 256), UInt8.ofNat (n / 256 % 256)]

theorem writeUInt16_eq {n : Nat} (h : n ≤ 65535) : writeInt16 n false = .ok (u16le n) := by
  unfold writeInt16 Int_to_bytes intToBytes
  rw [if_neg (by decide), if_pos ⟨by omega, by omega⟩]
  rfl

theorem writeUInt16_big {n : Nat} (h : 65535 < n) : writeInt16 n false = .error .overflowError := by
  unfold writeInt16 Int_to_bytes intToBytes
  rw [if_neg (by decide), if_neg (by omega)]

theorem writeDebugString_eq {s : PyStr} {enc : Bytes} (h : strEncode s = .ok enc) (hl : enc.length ≤ 65535) :
    writeDebugString s = .ok ([0x60, 0x0A] ++ u16le enc.length ++ enc) := by
  unfold writeDebugString
  rw [h]
  simp only
  rw [writeUInt16_eq hl, show writeInt16 0x0A60 false = .ok (u16le 0x0A60) from writeUInt16_eq (n := 0x0A60) (by decide)]
  simp [joinB, u16le]

theorem strEncode_nuls {t : PyStr} {k : Nat} (h : ∀ c ∈ t, IsScalar c) :
    ∃ enc, strEncode t = .ok enc ∧ strEncode (t ++ List.replicate k 0) = .ok (enc ++ List.replicate k (0 : UInt8)) := by
  induction t with
  | nil =>
    refine ⟨[], rfl, ?_⟩
    induction k with
    | zero => rfl
    | succ k ih =>
      simp only [List.replicate_succ, List.nil_append, strEncode] at ih ⊢
      rw [ih]; rfl
  | cons c cs ih =>
    obtain ⟨enc, h1, h2⟩ := ih fun c hc => h c (List.mem_cons_of_mem _ hc)
    have hc := (isScalar_iff c).2 (h c List.mem_cons_self)
    refine ⟨encodeCP c ++ enc, by simp [strEncode, hc, h1], ?_⟩
    simp only [List.cons_append, strEncode, hc, if_true]
    rw [h2]; simp

theorem nuls_scalar {t : PyStr} {k : Nat} (h : ∀ c ∈ t, IsScalar c) : ∀ c ∈ t ++ List.replicate k 0, IsScalar c := by
  intro c hc
  rcases List.mem_append.1 hc with hc | hc
  · exact h c hc
  · rw [(List.mem_replicate.1 hc).2]; left; omega

theorem decode_padded {t : PyStr} {enc : Bytes} (h : strEncode t = .ok enc) (hn : NoTrailingNul t) (k : Nat) :
    String_from_bytes (enc ++ List.replicate k 0) = .ok t := by
  unfold String_from_bytes
  rw [rstripNul_append_replicate, rstripNul_eq_self.2 (by rw [Ne, getLast?_strEncode h]; exact hn),
    strDecode_strEncode h]

/-! ## C06 -/

/-- A string that fits (encodable, no trailing NUL, at most 65535 bytes) is written as the marker
`0x0A60`, the byte length and the encoding, and read back unchanged. -/
theorem C06_debug_string_write_read (v : Version) (s : PyStr) (h : IsDebugStr s) :
    ∃ enc, strEncode s = .ok enc ∧ enc.length = utf8Len s ∧
      writeDebugString s = .ok ([0x60, 0x0A] ++ u16le enc.length ++ enc) ∧
      ReadsBackAs v readDebugString ([0x60, 0x0A] ++ u16le enc.length ++ enc) s := by
  obtain ⟨enc, he⟩ := (strEncode_ok_iff s).2 h.1
  have hl := strEncode_length he
  have hw := writeDebugString_eq he (by have := h.2.2; omega)
  refine ⟨enc, he, hl, hw, ?_⟩
  obtain ⟨bs, h1, h2⟩ := (RW.debugString (v := v) h).readsBackAs
  rw [hw] at h1
  simp only [Except.ok.injEq] at h1
  subst h1
  exact h2

/-- A longer string raises `OverflowError`. -/
theorem C06_debug_string_too_long (s : PyStr) (h : ∀ c ∈ s, IsScalar c) (hl : 65535 < utf8Len s) :
    Raises (writeDebugString s) .overflowError := by
  obtain ⟨enc, he⟩ := (strEncode_ok_iff s).2 h
  unfold Raises writeDebugString
  rw [he]
  simp only
  rw [writeUInt16_big (by rw [strEncode_length he]; exact hl)]
  rfl

/-- A string with a surrogate (or something that is no code point) raises `UnicodeEncodeError`. -/
theorem C06_debug_string_surrogate (s : PyStr) (c : Nat) (hc : c ∈ s) (h : ¬ IsScalar c) :
    Raises (writeDebugString s) .unicodeEncodeError := by
  have : ∃ e, strEncode s = .error e := by
    cases he : strEncode s with
    | error e => exact ⟨e, rfl⟩
    | ok bs => exact absurd ((strEncode_ok_iff s).1 ⟨bs, he⟩ c hc) h
  obtain ⟨e, he⟩ := this
  have := strEncode_error he
  subst this
  unfold Raises writeDebugString
  rw [he]

/-- A string with trailing NULs is written in full and read back without them. -/
theorem C06_debug_string_trailing_nuls (v : Version) (t : PyStr) (k : Nat) (h : ∀ c ∈ t, IsScalar c)
    (hn : NoTrailingNul t) (hl : utf8Len (t ++ List.replicate k 0) ≤ 65535) (pre post : Bytes) (l : Bool) :
    ∃ bs h', writeDebugString (t ++ List.replicate k 0) = .ok bs ∧ bs.length = 4 + utf8Len t + k ∧
      readDebugString { content := pre ++ bs ++ post, offset := pre.length, version := v, lossy := l } = .ok (t, h') ∧
      h'.content = pre ++ bs ++ post ∧ h'.offset = pre.length + bs.length ∧ h'.version = v := by
  obtain ⟨enc, h1, h2⟩ := strEncode_nuls (k := k) h
  have hl1 := strEncode_length h1
  have hl2 := strEncode_length h2
  simp only [List.length_append, List.length_replicate] at hl2
  have hw := writeDebugString_eq h2 (by simp; omega)
  have hlen : (enc ++ List.replicate k 0).length = utf8Len t + k := by simp; omega
  generalize hbody : enc ++ List.replicate k 0 = body at *
  obtain ⟨b1, e1, r1⟩ := (RW.uint16 (v := v) (i := 0x0A60) (by decide))
  obtain ⟨b2, e2, r2⟩ := (RW.uint16 (v := v) (i := (body.length : Int)) ⟨by omega, by omega⟩)
  have hb1 : b1 = [0x60, 0x0A] := by
    have := e1.symm.trans (writeUInt16_eq (n := 0x0A60) (by decide)); simpa [u16le] using this
  have hb2 : b2 = u16le body.length := by
    rw [writeUInt16_eq (by omega)] at e2; simpa using e2.symm
  subst hb1 hb2
  have r3 := Reads.consumeRange (v := v) (bs := body) (n := (body.length : Int).toNat) (by simp)
  have hd : String_from_bytes body = .ok t := by rw [← hbody]; exact decode_padded h1 hn k
  refine ⟨_, ⟨pre ++ ([0x60, 0x0A] ++ u16le body.length ++ body) ++ post, pre.length + 2 + 2 + body.length, v,
    l || decide (rstripNul body ≠ body)⟩, hw, by simp [u16le]; omega, ?_, rfl, ?_, rfl⟩
  · unfold readDebugString
    rw [bind_ok (r1 _ rfl ⟨u16le body.length ++ (body ++ post), by simp⟩), if_neg (by decide),
      bind_ok (r2 _ rfl ⟨body ++ post, by simp [← List.drop_drop]⟩),
      bind_ok (r3 _ rfl ⟨post, by simp [← List.drop_drop, u16le]⟩), bind_ok rfl, hd]
    rfl
  · simp [u16le]; omega

/-- Whatever is read as a debug string is a string that fits, so it can be written and read again. -/
theorem C06_debug_string_read_fits (h h' : ByteHandler) (s : PyStr)
    (hr : readDebugString h = .ok (s, h')) : IsDebugStr s := by
  rcases Good.debugString (v := h.version) h rfl with ⟨e, he, -⟩ | ⟨a, n, l, ha, st⟩
  · rw [hr] at he; simp at he
  · rw [hr] at ha; simp only [Except.ok.injEq, Prod.mk.injEq] at ha
    rw [ha.1]; exact st.post

/-- Anything but the marker `0x0A60` at the start is an `AssertionError`. -/
theorem C06_debug_string_marker (h : ByteHandler) (b0 b1 : UInt8) (rest : Bytes)
    (hc : h.content.drop h.offset = b0 :: b1 :: rest) (hm : (b0, b1) ≠ (0x60, 0x0A)) :
    Raises (readDebugString h) .assertionError := by
  have hs : slice h.content h.offset (h.offset + 2) = [b0, b1] := by rw [slice_eq, hc]; rfl
  unfold Raises readDebugString
  have hne : Int_from_bytes [b0, b1] false ≠ 0x0A60 := by
    intro he
    apply hm
    have hb0 := b0.toNat_lt
    have hb1 := b1.toNat_lt
    have : (b0.toNat + 256 * (b1.toNat + 256 * 0) : Int) = 0x0A60 := by
      have h0 : Int_from_bytes [b0, b1] false = ((b0.toNat + 256 * (b1.toNat + 256 * 0) : Nat) : Int) := rfl
      rw [h0] at he; omega
    have e0 : b0 = 0x60 := by rw [← UInt8.toNat_inj]; show b0.toNat = 0x60; omega
    have e1 : b1 = 0x0A := by rw [← UInt8.toNat_inj]; show b1.toNat = 0x0A; omega
    rw [e0, e1]
  have hr : readInt16 (signed := false) h = .ok (Int_from_bytes (slice h.content h.offset (h.offset + 2)) false, _) := rfl
  rw [bind_ok hr, hs, if_pos hne]; rfl

-- "Aö€😀" (1 + 2 + 3 + 4 bytes) fits
example : IsDebugStr [0x41, 0xF6, 0x20AC, 0x1F600] := by decide
example : writeDebugString [0x41, 0xF6, 0x20AC, 0x1F600] =
    .ok [0x60, 0x0A, 0x0A, 0x00, 0x41, 0xC3, 0xB6, 0xE2, 0x82, 0xAC, 0xF0, 0x9F, 0x98, 0x80] := rfl
-- a string that is too long; a surrogate; trailing NULs
example : (∀ c ∈ List.replicate 65536 0x41, IsScalar c) ∧ 65535 < utf8Len (List.replicate 65536 0x41) := by
  constructor
  · intro c hc; rw [(List.mem_replicate.1 hc).2]; left; omega
  · unfold utf8Len
    rw [List.map_replicate, List.sum_replicate_nat]; decide
example : (0xD800 : Nat) ∈ [0x41, 0xD800] ∧ ¬ IsScalar 0xD800 := by decide
example : NoTrailingNul [0x41] ∧ utf8Len ([0x41] ++ List.replicate 3 0) ≤ 65535 := by decide

/-! ## C07 -/

/-- `write_string(n, s)` with an encoding of at most `n` bytes: padded with NULs to exactly `n` bytes, and
`read_string(n)` returns the string without trailing NULs (`t`, when `s` is `t` and `k` NULs). -/
theorem C07_fixed_string_fits (v : Version) (n : Nat) (t : PyStr) (k : Nat) (hn : 0 < n)
    (h : ∀ c ∈ t, IsScalar c) (ht : NoTrailingNul t) (hl : utf8Len (t ++ List.replicate k 0) ≤ n) :
    ∃ enc bs, strEncode (t ++ List.replicate k 0) = .ok enc ∧
      writeString n (t ++ List.replicate k 0) = .ok bs ∧
      bs = enc ++ List.replicate (n - enc.length) 0 ∧ bs.length = n ∧ ReadsBackAs v (readString n) bs t := by
  obtain ⟨enc, h1, h2⟩ := strEncode_nuls (k := k) h
  have hl2 := strEncode_length h2
  refine ⟨_, _, h2, ?_, rfl, by simp at hl2 ⊢; omega, ?_⟩
  · unfold writeString String_to_bytes
    rw [h2]
    simp only
    rw [if_neg (by omega)]
  · have hlen : (enc ++ List.replicate k (0 : UInt8) ++
        List.replicate (n - (enc ++ List.replicate k (0 : UInt8)).length) (0 : UInt8)).length = n := by
      simp at hl2 ⊢; omega
    have := (Reads.consumeRange (v := v) hlen).bind
      (f := fun c => Genie.liftPy (String_from_bytes c)) (Reads.liftPy (a := t) (by
        rw [List.append_assoc, List.replicate_append_replicate, decode_padded h1 ht]))
    rw [List.append_nil] at this
    exact Reads.readsBackAs this

/-- An encoding longer than `n` is not cut and not refused: more than `n` bytes are written. -/
theorem C07_fixed_string_too_long (n : Nat) (s : PyStr) (hn : 0 < n) (h : ∀ c ∈ s, IsScalar c)
    (hl : n < utf8Len s) :
    ∃ enc, strEncode s = .ok enc ∧ writeString n s = .ok enc ∧ n < enc.length := by
  obtain ⟨enc, he⟩ := (strEncode_ok_iff s).2 h
  have hl2 := strEncode_length he
  refine ⟨enc, he, ?_, by omega⟩
  unfold writeString String_to_bytes
  rw [he]
  simp only
  rw [if_neg (by omega), show n - enc.length = 0 by omega]
  simp

/-- `write_string(0, s)` is not the empty field: it is the encoding and one NUL. -/
theorem C07_fixed_string_zero (s : PyStr) (h : ∀ c ∈ s, IsScalar c) :
    ∃ enc, strEncode s = .ok enc ∧ writeString 0 s = .ok (enc ++ [0]) := by
  obtain ⟨enc, he⟩ := (strEncode_ok_iff s).2 h
  refine ⟨enc, he, ?_⟩
  unfold writeString String_to_bytes
  rw [he]
  simp

/-- A surrogate raises `UnicodeEncodeError`, whatever the length. -/
theorem C07_fixed_string_surrogate (n : Nat) (s : PyStr) (c : Nat) (hc : c ∈ s) (h : ¬ IsScalar c) :
    Raises (writeString n s) .unicodeEncodeError := by
  have : ∃ e, strEncode s = .error e := by
    cases he : strEncode s with
    | error e => exact ⟨e, rfl⟩
    | ok bs => exact absurd ((strEncode_ok_iff s).1 ⟨bs, he⟩ c hc) h
  obtain ⟨e, he⟩ := this
  have := strEncode_error he
  subst this
  unfold Raises writeString String_to_bytes
  rw [he]

example : writeString 8 (lit "VER 8.8") = .ok [0x56, 0x45, 0x52, 0x20, 0x38, 0x2E, 0x38, 0x00] := rfl
example : NoTrailingNul (lit "VER 8.8") ∧ utf8Len (lit "VER 8.8" ++ List.replicate 1 0) ≤ 8 := by decide
example : (∀ c ∈ lit "VERSION 8.8", IsScalar c) ∧ 8 < utf8Len (lit "VERSION 8.8") := by decide

end Genie
