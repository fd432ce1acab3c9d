import Verif.Props.C61_SourceWriters
import Verif.Props.C01_C03_Integers
import Verif.Props.C04_C05_Floats
import Verif.Props.C06_C07_Strings
/-!
# C67: numbers and strings, from the source

C01 to C07 for the source of the methods `write_int_8`, …, `write_string` of `GenieClass` and `read_int_8`, …, `read_string` of `ByteHandler`, called
directly: each is executed (`callN`) as it is written in `/repo/src/genieutils/common.py` and `datatypes.py`.
-/

namespace Genie.Src

/-- Executing `self.w(…)` has this result and changes no object and no handler. -/
def Writing (room : Nat) (self : HVal) (w : Name) (as : Args) (H : Heap) (s : ByteHandler) : Py Bytes → Prop
  | .error e => callN room (.h self) n!"GenieClass" w as H s = .error e
  | .ok bs => callN room (.h self) n!"GenieClass" w as H s = .ok (.bytes bs, H, s)

/-- Executing `content.r(…)` when the content goes on with `bs`, whatever is before and after, returns `v`, moves the offset behind `bs`, and changes
nothing else. -/
def Reading (room : Nat) (r : Name) (as : Args) (bs : Bytes) (v : PVal) : Prop :=
  ∀ (H : Heap) (pre post : Bytes) (ver : Version) (l : Bool), ∃ t,
    callN room .handler n!"ByteHandler" r as H { content := pre ++ bs ++ post, offset := pre.length, version := ver, lossy := l } = .ok (v, H, t) ∧
      t.content = pre ++ bs ++ post ∧ t.offset = pre.length + bs.length ∧ t.version = ver

theorem Writing.of {room : Nat} {self : HVal} {w : Name} {as : Args} {H : Heap} {s : ByteHandler} {g : Py Bytes}
    (h : Wr H s PVal.bytes (callN room (.h self) n!"GenieClass" w as) g) (hg : g ≠ .error .recursionError) : Writing room self w as H s g := by
  have := h hg
  cases g <;> exact this

theorem Reading.of {room : Nat} {r : Name} {as : Args} {φ : α → PVal} {rd : Reader α} {bs : Bytes} {a : α}
    (h : Same φ (callN room .handler n!"ByteHandler" r as) (HReader.lift rd)) (hr : ∀ v, ReadsBackAs v rd bs a) : Reading room r as bs (φ a) := by
  intro H pre post ver l
  have h1 := h H { content := pre ++ bs ++ post, offset := pre.length, version := ver, lossy := l } _ ⟨rfl, rfl, rfl⟩
  unfold HReader.lift at h1
  rw [hr ver pre post l] at h1
  obtain ⟨t, ht, he⟩ := h1
  exact ⟨t, he, ht.content, ht.offset, ht.version⟩

theorem Reading.int {room : Nat} {r : Name} {as : Args} {rd : Reader Int} {bs : Bytes} {i : Int}
    (h : Same ofInt (callN room .handler n!"ByteHandler" r as) (HReader.lift rd)) (hr : ∀ v, ReadsBackAs v rd bs i) :
    Reading room r as bs (.h (.int i)) := Reading.of (φ := ofInt) (a := i) h hr

theorem Reading.str {room : Nat} {r : Name} {as : Args} {rd : Reader PyStr} {bs : Bytes} {t : PyStr}
    (h : Same ofStr (callN room .handler n!"ByteHandler" r as) (HReader.lift rd)) (hr : ∀ v, ReadsBackAs v rd bs t) :
    Reading room r as bs (.h (.str t)) := Reading.of (φ := ofStr) (a := t) h hr

theorem Reading.float {room : Nat} {r : Name} {as : Args} {rd : Reader PyFloat} {bs : Bytes} {x : PyFloat}
    (h : Same ofFloat (callN room .handler n!"ByteHandler" r as) (HReader.lift rd)) (hr : ∀ v, ReadsBackAs v rd bs x) :
    Reading room r as bs (.h (.float x)) := Reading.of (φ := ofFloat) (a := x) h hr

theorem int_ok {i : Int} {n : Nat} {s : Bool} : Genie.Int_to_bytes i n s ≠ .error .recursionError := by
  unfold Genie.Int_to_bytes intToBytes
  repeat' split
  all_goals intro h; cases h

theorem genie_dataclasses : ∀ c ∈ dataclassNames, isGenieB (Name.ofStr c) = true := by decide +kernel

theorem debug_eq (t : PyStr) : W.debugString (.ok (.str t)) = writeDebugString t := by
  unfold writeDebugString W.debugString
  simp only [bind, Except.bind, W.encode]
  cases strEncode t <;> rfl

section
variable (room : Nat) (hr : 3 ≤ room) (self : HVal) (H : Heap) (hk : OfPackage H) (s : ByteHandler)
include hr hk

/-- `write_int_8`, `read_int_8`. -/
theorem C67_int8 (i : Int) :
    (0 ≤ i ∧ i ≤ 255 → ∃ bs, bs.length = 1 ∧ Writing room self n!"write_int_8" ⟨[.h (.int i)], []⟩ H s (.ok bs) ∧
      Reading room n!"read_int_8" ⟨[], []⟩ bs (.h (.int i))) ∧
    (¬ (0 ≤ i ∧ i ≤ 255) → Writing room self n!"write_int_8" ⟨[.h (.int i)], []⟩ H s (.error .overflowError)) := by
  have hw : Writing room self n!"write_int_8" ⟨[.h (.int i)], []⟩ H s (writeInt8 i) := .of (write_int_8 hk.known hr self (.int i)) int_ok
  constructor
  · intro h
    obtain ⟨bs, h1, hl, -⟩ := C01_int8_write_read .VER_88 i h
    rw [h1] at hw
    refine ⟨bs, hl, hw, .int (read_int_8 (by omega)) fun v => ?_⟩
    obtain ⟨bs', h1', -, h2⟩ := C01_int8_write_read v i h
    rw [h1] at h1'
    cases h1'
    exact h2
  · intro h
    rw [(C03_int8_overflow i).2 h] at hw
    exact hw

/-- `write_int_16`, `read_int_16`. -/
theorem C67_int16 (i : Int) :
    (-2 ^ 15 ≤ i ∧ i < 2 ^ 15 → ∃ bs, bs.length = 2 ∧ Writing room self n!"write_int_16" ⟨[.h (.int i)], []⟩ H s (.ok bs) ∧
      Reading room n!"read_int_16" ⟨[], []⟩ bs (.h (.int i))) ∧
    (¬ (-2 ^ 15 ≤ i ∧ i < 2 ^ 15) → Writing room self n!"write_int_16" ⟨[.h (.int i)], []⟩ H s (.error .overflowError)) := by
  have hw : Writing room self n!"write_int_16" ⟨[.h (.int i)], []⟩ H s (writeInt16 i) := .of (write_int_16 hk.known hr self (.int i)) int_ok
  constructor
  · intro h
    obtain ⟨bs, h1, hl, -⟩ := C01_int16_write_read .VER_88 i h
    rw [h1] at hw
    refine ⟨bs, hl, hw, .int (read_int_16 (by omega)) fun v => ?_⟩
    obtain ⟨bs', h1', -, h2⟩ := C01_int16_write_read v i h
    rw [h1] at h1'
    cases h1'
    exact h2
  · intro h
    rw [(C03_int16_overflow i).2 h] at hw
    exact hw

/-- `write_int_16(…, signed=False)`, `read_int_16(signed=False)`. -/
theorem C67_uint16 (i : Int) :
    (0 ≤ i ∧ i < 2 ^ 16 → ∃ bs, bs.length = 2 ∧ Writing room self n!"write_int_16" ⟨[.h (.int i)], [(n!"signed", .bool false)]⟩ H s (.ok bs) ∧
      Reading room n!"read_int_16" ⟨[], [(n!"signed", .bool false)]⟩ bs (.h (.int i))) ∧
    (¬ (0 ≤ i ∧ i < 2 ^ 16) → Writing room self n!"write_int_16" ⟨[.h (.int i)], [(n!"signed", .bool false)]⟩ H s (.error .overflowError)) := by
  have hw : Writing room self n!"write_int_16" ⟨[.h (.int i)], [(n!"signed", .bool false)]⟩ H s (writeInt16 i (signed := false)) :=
    .of (write_int_16_signed hk.known hr self (.int i) false) int_ok
  constructor
  · intro h
    obtain ⟨bs, h1, hl, -⟩ := C01_uint16_write_read .VER_88 i h
    rw [h1] at hw
    refine ⟨bs, hl, hw, .int (read_int_16_signed (by omega) false) fun v => ?_⟩
    obtain ⟨bs', h1', -, h2⟩ := C01_uint16_write_read v i h
    rw [h1] at h1'
    cases h1'
    exact h2
  · intro h
    rw [(C03_uint16_overflow i).2 h] at hw
    exact hw

/-- `write_int_32`, `read_int_32`. -/
theorem C67_int32 (i : Int) :
    (-2 ^ 31 ≤ i ∧ i < 2 ^ 31 → ∃ bs, bs.length = 4 ∧ Writing room self n!"write_int_32" ⟨[.h (.int i)], []⟩ H s (.ok bs) ∧
      Reading room n!"read_int_32" ⟨[], []⟩ bs (.h (.int i))) ∧
    (¬ (-2 ^ 31 ≤ i ∧ i < 2 ^ 31) → Writing room self n!"write_int_32" ⟨[.h (.int i)], []⟩ H s (.error .overflowError)) := by
  have hw : Writing room self n!"write_int_32" ⟨[.h (.int i)], []⟩ H s (writeInt32 i) := .of (write_int_32 hk.known hr self (.int i)) int_ok
  constructor
  · intro h
    obtain ⟨bs, h1, hl, -⟩ := C01_int32_write_read .VER_88 i h
    rw [h1] at hw
    refine ⟨bs, hl, hw, .int (read_int_32 (by omega)) fun v => ?_⟩
    obtain ⟨bs', h1', -, h2⟩ := C01_int32_write_read v i h
    rw [h1] at h1'
    cases h1'
    exact h2
  · intro h
    rw [(C03_int32_overflow i).2 h] at hw
    exact hw

/-- `write_int_32(…, signed=False)`, `read_int_32(signed=False)`. -/
theorem C67_uint32 (i : Int) :
    (0 ≤ i ∧ i < 2 ^ 32 → ∃ bs, bs.length = 4 ∧ Writing room self n!"write_int_32" ⟨[.h (.int i)], [(n!"signed", .bool false)]⟩ H s (.ok bs) ∧
      Reading room n!"read_int_32" ⟨[], [(n!"signed", .bool false)]⟩ bs (.h (.int i))) ∧
    (¬ (0 ≤ i ∧ i < 2 ^ 32) → Writing room self n!"write_int_32" ⟨[.h (.int i)], [(n!"signed", .bool false)]⟩ H s (.error .overflowError)) := by
  have hw : Writing room self n!"write_int_32" ⟨[.h (.int i)], [(n!"signed", .bool false)]⟩ H s (writeInt32 i (signed := false)) :=
    .of (write_int_32_signed hk.known hr self (.int i) false) int_ok
  constructor
  · intro h
    obtain ⟨bs, h1, hl, -⟩ := C01_uint32_write_read .VER_88 i h
    rw [h1] at hw
    refine ⟨bs, hl, hw, .int (read_int_32_signed (by omega) false) fun v => ?_⟩
    obtain ⟨bs', h1', -, h2⟩ := C01_uint32_write_read v i h
    rw [h1] at h1'
    cases h1'
    exact h2
  · intro h
    rw [(C03_uint32_overflow i).2 h] at hw
    exact hw

/-- Any bytes: reading them as a number and writing the number gives these bytes. -/
theorem C67_int_read_write (bs : Bytes) :
    (bs.length = 1 → ∃ i, (0 ≤ i ∧ i ≤ 255) ∧ Reading room n!"read_int_8" ⟨[], []⟩ bs (.h (.int i)) ∧
      Writing room self n!"write_int_8" ⟨[.h (.int i)], []⟩ H s (.ok bs)) ∧
    (bs.length = 2 → ∃ i, (-2 ^ 15 ≤ i ∧ i < 2 ^ 15) ∧ Reading room n!"read_int_16" ⟨[], []⟩ bs (.h (.int i)) ∧
      Writing room self n!"write_int_16" ⟨[.h (.int i)], []⟩ H s (.ok bs)) ∧
    (bs.length = 4 → ∃ i, (-2 ^ 31 ≤ i ∧ i < 2 ^ 31) ∧ Reading room n!"read_int_32" ⟨[], []⟩ bs (.h (.int i)) ∧
      Writing room self n!"write_int_32" ⟨[.h (.int i)], []⟩ H s (.ok bs)) := by
  have uniq : ∀ {rd : Reader Int} {i j : Int} {v w : Version}, ReadsBackAs v rd bs i → ReadsBackAs w rd bs j →
      (∀ v' w' : Version, ∀ c o l, (rd ⟨c, o, v', l⟩).map (·.1) = (rd ⟨c, o, w', l⟩).map (·.1)) → i = j := by
    intro rd i j v w hi hj hv
    have h1 := hi [] [] false
    have h2 := hj [] [] false
    have := hv v w ([] ++ bs ++ []) 0 false
    simp only [List.length_nil] at h1 h2
    rw [h1, h2] at this
    exact Except.ok.inj this
  refine ⟨fun h => ?_, fun h => ?_, fun h => ?_⟩
  · obtain ⟨i, hi, h1, h2⟩ := C02_int8_read_write .VER_88 bs h
    refine ⟨i, hi, .int (read_int_8 (by omega)) fun v => ?_, ?_⟩
    · obtain ⟨j, -, h1', -⟩ := C02_int8_read_write v bs h
      rw [uniq h1 h1' (fun _ _ _ _ _ => rfl)]
      exact h1'
    · rw [← h2]; exact .of (write_int_8 hk.known hr self (.int i)) int_ok
  · obtain ⟨i, hi, h1, h2⟩ := C02_int16_read_write .VER_88 bs h
    refine ⟨i, hi, .int (read_int_16 (by omega)) fun v => ?_, ?_⟩
    · obtain ⟨j, -, h1', -⟩ := C02_int16_read_write v bs h
      rw [uniq h1 h1' (fun _ _ _ _ _ => rfl)]
      exact h1'
    · rw [← h2]; exact .of (write_int_16 hk.known hr self (.int i)) int_ok
  · obtain ⟨i, hi, h1, h2⟩ := C02_int32_read_write .VER_88 bs h
    refine ⟨i, hi, .int (read_int_32 (by omega)) fun v => ?_, ?_⟩
    · obtain ⟨j, -, h1', -⟩ := C02_int32_read_write v bs h
      rw [uniq h1 h1' (fun _ _ _ _ _ => rfl)]
      exact h1'
    · rw [← h2]; exact .of (write_int_32 hk.known hr self (.int i)) int_ok

/-- `write_debug_string`, `read_debug_string` (of any instance of a class of the package): a string without surrogates and without NUL characters at the
end, of at most 65535 bytes, is written as `60 0A`, its length, and its UTF-8 encoding, and read back; longer strings raise `OverflowError` and
surrogates `UnicodeEncodeError`. -/
theorem C67_debug_string (hr4 : 4 ≤ room) (a : Nat) (cls : PyStr) (attrs : List (PyStr × HVal)) (ha : H[a]? = some (.record cls attrs)) (t : PyStr) :
    (IsDebugStr t → ∃ enc, strEncode t = .ok enc ∧ enc.length = utf8Len t ∧
      Writing room (.ref a) n!"write_debug_string" ⟨[.h (.str t)], []⟩ H s (.ok ([0x60, 0x0A] ++ u16le enc.length ++ enc)) ∧
      Reading room n!"read_debug_string" ⟨[], []⟩ ([0x60, 0x0A] ++ u16le enc.length ++ enc) (.h (.str t))) ∧
    ((∀ c ∈ t, IsScalar c) → 65535 < utf8Len t →
      Writing room (.ref a) n!"write_debug_string" ⟨[.h (.str t)], []⟩ H s (.error .overflowError)) ∧
    (∀ c ∈ t, ¬ IsScalar c → Writing room (.ref a) n!"write_debug_string" ⟨[.h (.str t)], []⟩ H s (.error .unicodeEncodeError)) := by
  have hi : IsA H (.ref a) (Name.ofStr cls) := ⟨cls, attrs, ha, rfl⟩
  have hg : IsGenie (Name.ofStr cls) := IsGenie.of (genie_dataclasses cls (hk a cls attrs ha))
  have e : W.debugString (.ok (.str t)) = writeDebugString t := debug_eq t
  have hw := write_debug_string (H := H) (s := s) hk.known hr4 hi hg (.str t)
  rw [e] at hw
  refine ⟨fun h => ?_, fun h hl => ?_, fun c hc hs => ?_⟩
  · obtain ⟨enc, h1, h2, h3, -⟩ := C06_debug_string_write_read .VER_88 t h
    rw [h3] at hw
    refine ⟨enc, h1, h2, .of hw (fun h => by cases h), .str (read_debug_string (by omega)) fun v => ?_⟩
    obtain ⟨enc', h1', -, -, h4⟩ := C06_debug_string_write_read v t h
    rw [h1] at h1'
    cases h1'
    exact h4
  · rw [C06_debug_string_too_long t h hl] at hw
    exact .of hw (fun h => by cases h)
  · rw [C06_debug_string_surrogate t c hc hs] at hw
    exact .of hw (fun h => by cases h)

end

section
variable (room : Nat) (hr : 3 ≤ room) (self : HVal) (H : Heap) (s : ByteHandler)
include hr

/-- `write_float`: four bytes for every float; `read_float` gives the float back exactly if single precision can represent it, and otherwise the nearest
(C05). -/
theorem C67_float (x : PyFloat) :
    ∃ bs, bs.length = 4 ∧ writeFloat x = .ok bs ∧ Writing room self n!"write_float" ⟨[.h (.float x)], []⟩ H s (.ok bs) ∧
      (Reading room n!"read_float" ⟨[], []⟩ bs (.h (.float x)) ↔ IsF32 x) := by
  obtain ⟨bs, h1, hl⟩ := C05_write_float_total x
  have hw : Writing room self n!"write_float" ⟨[.h (.float x)], []⟩ H s (writeFloat x) :=
    .of (write_float (by omega) self (.float x)) (by rw [h1]; intro h; cases h)
  rw [h1] at hw
  refine ⟨bs, hl, h1, hw, fun h => ?_, fun h => .float (read_float (by omega)) fun v => ?_⟩
  · obtain ⟨t, h2, -⟩ := h [] [] [] .VER_88 false
    have h7 := read_float (n := room) (by omega) [] { content := [] ++ bs ++ [], offset := 0, version := .VER_88, lossy := false } _ ⟨rfl, rfl, rfl⟩
    unfold HReader.lift at h7
    rw [readFloat_at hl (by rw [slice_eq]; simp [← hl])] at h7
    obtain ⟨t', -, h8⟩ := h7
    have h8 := h2.symm.trans h8
    have h9 := congrArg Prod.fst (Except.ok.inj h8)
    have h10 : x = floatOfBytes bs := by simpa [ofFloat] using h9
    rw [h10]
    exact IsF32_floatOfBytes hl
  · obtain ⟨bs', h1', h2⟩ := (C05_float_write_read_iff v x).2 h
    rw [h1] at h1'
    cases h1'
    exact h2

/-- `write_string(k, …)` of any length — `/repo/src/genieutils/common.py:44-45`, `/repo/src/genieutils/datatypes.py:10-15`. -/
theorem write_string_any (k : Nat) (v : HVal) :
    Wr H s PVal.bytes (callN room (.h self) n!"GenieClass" n!"write_string" ⟨[.h (.int k), .h v], []⟩) (W.string k (.ok v)) := by
  write_fun
  refine Wr.tail (F := Flow.ret) ?_
  write_fun
  refine Wr.bind (g := W.encode v) (plain_encode (by omega) v _ (Or.inl rfl)) fun b => ?_
  cases k with
  | zero =>
    peel
    refine Wr.done' ?_
    simp
  | succ k =>
    peel
    refine Wr.done' ?_
    simp

/-- `write_string(k, …)`, `read_string(k)`: a string that fits is padded with NULs to `k` bytes and read back without the NULs at its end; a longer one is
written whole; `k = 0` writes the string and one NUL; surrogates raise `UnicodeEncodeError`. -/
theorem C67_string (k : Nat) :
    (∀ (t : PyStr) (z : Nat), 0 < k → (∀ c ∈ t, IsScalar c) → NoTrailingNul t → utf8Len (t ++ List.replicate z 0) ≤ k →
      ∃ enc, strEncode (t ++ List.replicate z 0) = .ok enc ∧ enc.length ≤ k ∧
        Writing room self n!"write_string" ⟨[.h (.int k), .h (.str (t ++ List.replicate z 0))], []⟩ H s (.ok (enc ++ List.replicate (k - enc.length) 0)) ∧
        Reading room n!"read_string" ⟨[.h (.int k)], []⟩ (enc ++ List.replicate (k - enc.length) 0) (.h (.str t))) ∧
    (∀ t : PyStr, 0 < k → (∀ c ∈ t, IsScalar c) → k < utf8Len t →
      ∃ enc, strEncode t = .ok enc ∧ k < enc.length ∧ Writing room self n!"write_string" ⟨[.h (.int k), .h (.str t)], []⟩ H s (.ok enc)) ∧
    (∀ t : PyStr, (∀ c ∈ t, IsScalar c) →
      ∃ enc, strEncode t = .ok enc ∧ Writing room self n!"write_string" ⟨[.h (.int 0), .h (.str t)], []⟩ H s (.ok (enc ++ [0]))) ∧
    (∀ t : PyStr, ∀ c ∈ t, ¬ IsScalar c → Writing room self n!"write_string" ⟨[.h (.int k), .h (.str t)], []⟩ H s (.error .unicodeEncodeError)) := by
  have e : ∀ (k : Nat) (t : PyStr), W.string k (.ok (.str t)) = writeString k t := by
    intro k t
    unfold writeString W.string String_to_bytes
    show (strEncode t >>= fun encoded => _) = _
    cases strEncode t <;> rfl
  have hw : ∀ (k : Nat) (t : PyStr) g, writeString k t = g → g ≠ .error .recursionError →
      Writing room self n!"write_string" ⟨[.h (.int k), .h (.str t)], []⟩ H s g := by
    intro k t g h hg
    have := write_string_any room hr self H s k (.str t)
    rw [e, h] at this
    exact .of this hg
  refine ⟨fun t z hk hs hn hl => ?_, fun t hk hs hl => ?_, fun t hs => ?_, fun t c hc hs => ?_⟩
  · obtain ⟨enc, bs, h1, h2, rfl, h4, -⟩ := C07_fixed_string_fits .VER_88 k t z hk hs hn hl
    refine ⟨enc, h1, by simp at h4; omega, hw k _ _ h2 (fun h => by cases h), .str (read_string (by omega) k) fun v => ?_⟩
    obtain ⟨enc', bs', h1', h2', rfl, -, h5⟩ := C07_fixed_string_fits v k t z hk hs hn hl
    rw [h1] at h1'
    cases h1'
    exact h5
  · obtain ⟨enc, h1, h2, h3⟩ := C07_fixed_string_too_long k t hk hs hl
    exact ⟨enc, h1, h3, hw k _ _ h2 (fun h => by cases h)⟩
  · obtain ⟨enc, h1, h2⟩ := C07_fixed_string_zero t hs
    exact ⟨enc, h1, hw 0 _ _ h2 (fun h => by cases h)⟩
  · exact hw k _ _ (C07_fixed_string_surrogate k t c hc hs) (fun h => by cases h)

end

-- -1 is written as `FF FF` by a building and read back; 40000 raises `OverflowError`, but not with `signed=False`; "Scout" is written with its marker; 0.1
-- is not read back as it was, 0.5 is
example : Writing 100 (.int 0) n!"write_int_16" ⟨[.h (.int (-1))], []⟩ [] (ByteHandler.new []) (.ok [0xFF, 0xFF]) ∧
    Reading 100 n!"read_int_16" ⟨[], []⟩ [0xFF, 0xFF] (.h (.int (-1))) := by
  refine ⟨rfl, ?_⟩
  obtain ⟨i, -, h, -⟩ := (C67_int_read_write 100 (by omega) (.int 0) [] (fun _ _ _ h => by cases h) (ByteHandler.new []) [0xFF, 0xFF]).2.1 rfl
  obtain ⟨t, h1, -⟩ := h [] [] [] .VER_88 false
  have h2 : i = -1 := by
    have : callN 100 .handler n!"ByteHandler" n!"read_int_16" ⟨[], []⟩ [] ⟨[0xFF, 0xFF], 0, .VER_88, false⟩ =
      .ok (.h (.int (-1)), [], ⟨[0xFF, 0xFF], 2, .VER_88, false⟩) := rfl
    have := h1.symm.trans this
    simpa using congrArg Prod.fst (Except.ok.inj this)
  rw [← h2]
  exact h

example : Writing 100 (.int 0) n!"write_int_16" ⟨[.h (.int 40000)], []⟩ [] (ByteHandler.new []) (.error .overflowError) :=
  (C67_int16 100 (by omega) (.int 0) [] (fun _ _ _ h => by cases h) (ByteHandler.new []) 40000).2 (by decide)

example : ∃ bs, bs.length = 2 ∧ Writing 100 (.int 0) n!"write_int_16" ⟨[.h (.int 40000)], [(n!"signed", .bool false)]⟩ [] (ByteHandler.new []) (.ok bs) ∧
    Reading 100 n!"read_int_16" ⟨[], [(n!"signed", .bool false)]⟩ bs (.h (.int 40000)) :=
  (C67_uint16 100 (by omega) (.int 0) [] (fun _ _ _ h => by cases h) (ByteHandler.new []) 40000).1 (by decide)

example : Writing 100 (.ref 0) n!"write_debug_string" ⟨[.h (.str (lit "Scout"))], []⟩
    [.record (lit "ResearchResourceCost") [(lit "type", .int 1), (lit "amount", .int (-1)), (lit "flag", .int 1)]] (ByteHandler.new [])
    (.ok [0x60, 0x0A, 5, 0, 83, 99, 111, 117, 116]) := by
  obtain ⟨enc, h1, -, h2, -⟩ := (C67_debug_string 100 (by omega) [.record (lit "ResearchResourceCost") [(lit "type", .int 1), (lit "amount", .int (-1)), (lit "flag", .int 1)]]
    (by
      intro a c at_ h
      cases a with
      | zero => cases h; decide +kernel
      | succ a => cases h)
    (ByteHandler.new []) (by omega) 0 _ _ rfl (lit "Scout")).1 (by unfold IsDebugStr; decide +kernel)
  have h3 : strEncode (lit "Scout") = .ok [83, 99, 111, 117, 116] := by rfl
  rw [h3] at h1
  cases h1
  exact h2

example : ¬ IsF32 ⟨0x3FB999999999999A⟩ ∧ IsF32 ⟨0x3FE0000000000000⟩ := by decide

/-! ## New instances -/

/-- The attributes of a new dataclass instance (`C(a, …, x=b, …)`): the fields of the class in their order; the first have the values that are given by position,
the others those given by keyword, or else their default values. -/
theorem C67_new_instance : ∀ (fields : List (Name × Ex)) (pos : List PVal) (kw : List (Name × PVal)) (attrs : List (PyStr × HVal)),
    fieldVals fields pos kw = some attrs →
    attrs.map (·.1) = fields.map (fun f => Name.str f.1) ∧ (attrs.take pos.length).map (fun a => PVal.h a.2) = pos ∧
    ∀ p ∈ (fields.zip attrs).drop pos.length,
      find p.1.1 kw = some (.h p.2.2) ∨ (find p.1.1 kw = none ∧ litVal p.1.2 = some (.h p.2.2))
  | [], [], _, _, h => by cases h; exact ⟨rfl, rfl, fun _ hp => by cases hp⟩
  | [], _ :: _, _, _, h => by cases h
  | (x, d) :: fs, v :: pos, kw, attrs, h => by
    cases v <;> try (cases h; done)
    rename_i v
    rw [fieldVals] at h
    cases hr : fieldVals fs pos kw with
    | none => rw [hr] at h; cases h
    | some rest =>
      rw [hr] at h
      cases h
      obtain ⟨h1, h2, h3⟩ := C67_new_instance fs pos kw rest hr
      exact ⟨congrArg _ h1, congrArg _ h2, h3⟩
  | (x, d) :: fs, [], kw, attrs, h => by
    rw [fieldVals] at h
    have go (v : HVal) (hv : find x kw = some (.h v) ∨ (find x kw = none ∧ litVal d = some (.h v)))
        (h : (match fieldVals fs [] kw with
          | some rest => some ((Name.str x, v) :: rest)
          | none => none) = some attrs) : attrs.map (·.1) = ((x, d) :: fs).map (fun f => Name.str f.1) ∧
        ∀ p ∈ ((x, d) :: fs).zip attrs, find p.1.1 kw = some (.h p.2.2) ∨ (find p.1.1 kw = none ∧ litVal p.1.2 = some (.h p.2.2)) := by
      cases hr : fieldVals fs [] kw with
      | none => rw [hr] at h; cases h
      | some rest =>
        rw [hr] at h
        cases h
        obtain ⟨h1, _, h3⟩ := C67_new_instance fs [] kw rest hr
        refine ⟨congrArg _ h1, fun p hp => ?_⟩
        rw [List.zip_cons_cons] at hp
        rcases List.mem_cons.1 hp with rfl | hp
        · exact hv
        · exact h3 p hp
    cases hf : find x kw with
    | some v =>
      rw [hf] at h
      cases v <;> try (cases h; done)
      rename_i v
      obtain ⟨h1, h2⟩ := go v (.inl hf) h
      exact ⟨h1, rfl, h2⟩
    | none =>
      rw [hf] at h
      cases hd : litVal d with
      | none => rw [hd] at h; cases h
      | some v =>
        rw [hd] at h
        cases v <;> try (cases h; done)
        rename_i v
        obtain ⟨h1, h2⟩ := go v (.inr ⟨hf, hd⟩) h
        exact ⟨h1, rfl, h2⟩

example : fieldVals [(n!"type", .argNil), (n!"amount", .argNil), (n!"flag", .int 7)] [.h (.int 1)] [(n!"amount", .h (.int 2))] =
    some [(lit "type", .int 1), (lit "amount", .int 2), (lit "flag", .int 7)] := by rfl

end Genie.Src
