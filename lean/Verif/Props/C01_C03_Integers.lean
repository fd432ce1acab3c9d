import Verif.Proof.Prims
import Verif.Proof.Api
/-!
# C01 – C03: integer fields

`write_int_8/16/32` and `read_int_8/16/32`.
-/

namespace Genie

theorem int_write_length {i : Int} {n : Nat} {s : Bool} {bs : Bytes}
    (h : Int_to_bytes i n s = .ok bs) : bs.length = n := intToBytes_length h

/-! ## C01: write, then read -/

theorem C01_int8_write_read (v : Version) (i : Int) (h : 0 ≤ i ∧ i ≤ 255) :
    ∃ bs, writeInt8 i = .ok bs ∧ bs.length = 1 ∧ ReadsBackAs v readInt8 bs i := by
  obtain ⟨bs, h1, h2⟩ := (RW.int8 (v := v) h).readsBackAs
  exact ⟨bs, h1, int_write_length h1, h2⟩

theorem C01_int16_write_read (v : Version) (i : Int) (h : -2 ^ 15 ≤ i ∧ i < 2 ^ 15) :
    ∃ bs, writeInt16 i = .ok bs ∧ bs.length = 2 ∧ ReadsBackAs v readInt16 bs i := by
  obtain ⟨bs, h1, h2⟩ := (RW.int16 (v := v) (i := i) (by unfold IsI16; omega)).readsBackAs
  exact ⟨bs, h1, int_write_length h1, h2⟩

theorem C01_uint16_write_read (v : Version) (i : Int) (h : 0 ≤ i ∧ i < 2 ^ 16) :
    ∃ bs, writeInt16 i (signed := false) = .ok bs ∧ bs.length = 2 ∧
      ReadsBackAs v (readInt16 (signed := false)) bs i := by
  obtain ⟨bs, h1, h2⟩ := (RW.uint16 (v := v) (i := i) (by unfold IsU16; omega)).readsBackAs
  exact ⟨bs, h1, int_write_length h1, h2⟩

theorem C01_int32_write_read (v : Version) (i : Int) (h : -2 ^ 31 ≤ i ∧ i < 2 ^ 31) :
    ∃ bs, writeInt32 i = .ok bs ∧ bs.length = 4 ∧ ReadsBackAs v readInt32 bs i := by
  obtain ⟨bs, h1, h2⟩ := (RW.int32 (v := v) (i := i) (by unfold IsI32; omega)).readsBackAs
  exact ⟨bs, h1, int_write_length h1, h2⟩

theorem C01_uint32_write_read (v : Version) (i : Int) (h : 0 ≤ i ∧ i < 2 ^ 32) :
    ∃ bs, writeInt32 i (signed := false) = .ok bs ∧ bs.length = 4 ∧
      ReadsBackAs v (readInt32 (signed := false)) bs i := by
  obtain ⟨bs, h1, h2⟩ := (RW.uint32 (v := v) (i := i) (by unfold IsU32; omega)).readsBackAs
  exact ⟨bs, h1, int_write_length h1, h2⟩

/-- The byte order is little-endian two's complement: byte `k` of the written field is
`⌊i / 256^k⌋ mod 256`. -/
theorem C01_little_endian (i : Int) (n : Nat) (s : Bool) (bs : Bytes) (h : Int_to_bytes i n s = .ok bs)
    (k : Nat) (hk : k < n) : ∃ b, bs[k]? = some b ∧ (b.toNat : Int) = i / 256 ^ k % 256 := by
  have key : ∀ (n x k : Nat), k < n → (natLE n x)[k]? = some (UInt8.ofNat (x / 256 ^ k % 256)) := by
    intro n
    induction n with
    | zero => intro x k hk; omega
    | succ n ih =>
      intro x k hk
      cases k with
      | zero => simp [natLE]
      | succ k =>
        simp only [natLE, List.getElem?_cons_succ]
        rw [ih _ _ (by omega), Nat.div_div_eq_div_mul, Nat.pow_succ, Nat.mul_comm 256]
  have hb : ∀ x : Nat, (UInt8.ofNat (x % 256)).toNat = x % 256 := by
    intro x; simp
  unfold Int_to_bytes intToBytes at h
  have fin : ∀ x : Nat, (x : Int) = i % 256 ^ n → bs = natLE n x →
      ∃ b, bs[k]? = some b ∧ (b.toNat : Int) = i / 256 ^ k % 256 := by
    intro x hx hbs
    refine ⟨_, by rw [hbs]; exact key n x k hk, ?_⟩
    rw [hb]
    have e1 : ((x / 256 ^ k % 256 : Nat) : Int) = (x : Int) / 256 ^ k % 256 := by
      rw [Int.natCast_emod, Int.natCast_ediv, Int.natCast_pow]; rfl
    rw [e1, hx]
    obtain ⟨j, rfl⟩ : ∃ j, n = k + 1 + j := ⟨n - (k + 1), by omega⟩
    have e2 : (256 : Int) ^ (k + 1 + j) = 256 ^ k * (256 * 256 ^ j) := by
      rw [Int.pow_add, Int.pow_succ, Int.mul_assoc]
    have hp : (0 : Int) < 256 ^ k := Int.pow_pos (by omega)
    rw [e2]
    have e3 : i % (256 ^ k * (256 * 256 ^ j)) = i - 256 ^ k * (256 * 256 ^ j * (i / (256 ^ k * (256 * 256 ^ j)))) := by
      rw [Int.emod_def, Int.mul_assoc]
    rw [e3, Int.sub_mul_ediv_left _ _ (by omega)]
    rw [Int.mul_assoc 256, Int.sub_mul_emod_self_left]
  split at h
  · split at h
    · rename_i hr
      simp only [Except.ok.injEq] at h
      have hp : (0 : Int) < 256 ^ n := Int.pow_pos (by omega)
      refine fin (i % 256 ^ n).toNat ?_ h.symm
      have := Int.emod_nonneg i (by omega : (256 : Int) ^ n ≠ 0)
      omega
    · simp at h
  · split at h
    · rename_i hr
      simp only [Except.ok.injEq] at h
      refine fin i.toNat ?_ h.symm
      rw [Int.emod_eq_of_lt hr.1 hr.2]; omega
    · simp at h

-- the hypotheses are satisfiable: -1 in a signed field, and the bytes it is written as
example : (-2 ^ 15 ≤ (-1 : Int) ∧ (-1 : Int) < 2 ^ 15) ∧ writeInt16 (-1) = .ok [0xFF, 0xFF] := ⟨by decide, rfl⟩
example : writeInt32 (-1000) = .ok [0x18, 0xFC, 0xFF, 0xFF] := rfl
example : writeInt16 60000 (signed := false) = .ok [0x60, 0xEA] := rfl

/-! ## C02: read, then write -/

theorem C02_int8_read_write (v : Version) (bs : Bytes) (h : bs.length = 1) :
    ∃ i, (0 ≤ i ∧ i ≤ 255) ∧ ReadsBackAs v readInt8 bs i ∧ writeInt8 i = .ok bs := by
  have hr := intFromBytes_range_unsigned bs
  have hw := intToBytes_intFromBytes bs false
  rw [h] at hr hw
  refine ⟨intFromBytes bs false, ⟨hr.1, by omega⟩, ?_, hw⟩
  obtain ⟨b, e, hrd⟩ := RW.int8 (v := v) (i := intFromBytes bs false) (by unfold IsU8; omega)
  have : b = bs := by have := e.symm.trans hw; simpa using this
  subst this
  exact hrd.readsBackAs

theorem C02_int16_read_write (v : Version) (bs : Bytes) (h : bs.length = 2) :
    ∃ i, (-2 ^ 15 ≤ i ∧ i < 2 ^ 15) ∧ ReadsBackAs v readInt16 bs i ∧ writeInt16 i = .ok bs := by
  have hr := intFromBytes_range_signed bs
  have hw := intToBytes_intFromBytes bs true
  rw [h] at hr hw
  refine ⟨_, by omega, ?_, hw⟩
  obtain ⟨b, e, hrd⟩ := RW.int16 (v := v) (i := intFromBytes bs true) (by unfold IsI16; omega)
  have : b = bs := by have := e.symm.trans hw; simpa using this
  subst this
  exact hrd.readsBackAs

theorem C02_uint16_read_write (v : Version) (bs : Bytes) (h : bs.length = 2) :
    ∃ i, (0 ≤ i ∧ i < 2 ^ 16) ∧ ReadsBackAs v (readInt16 (signed := false)) bs i ∧
      writeInt16 i (signed := false) = .ok bs := by
  have hr := intFromBytes_range_unsigned bs
  have hw := intToBytes_intFromBytes bs false
  rw [h] at hr hw
  refine ⟨intFromBytes bs false, ⟨hr.1, by omega⟩, ?_, hw⟩
  obtain ⟨b, e, hrd⟩ := RW.uint16 (v := v) (i := intFromBytes bs false) (by unfold IsU16; omega)
  have : b = bs := by have := e.symm.trans hw; simpa using this
  subst this
  exact hrd.readsBackAs

theorem C02_int32_read_write (v : Version) (bs : Bytes) (h : bs.length = 4) :
    ∃ i, (-2 ^ 31 ≤ i ∧ i < 2 ^ 31) ∧ ReadsBackAs v readInt32 bs i ∧ writeInt32 i = .ok bs := by
  have hr := intFromBytes_range_signed bs
  have hw := intToBytes_intFromBytes bs true
  rw [h] at hr hw
  refine ⟨_, by omega, ?_, hw⟩
  obtain ⟨b, e, hrd⟩ := RW.int32 (v := v) (i := intFromBytes bs true) (by unfold IsI32; omega)
  have : b = bs := by have := e.symm.trans hw; simpa using this
  subst this
  exact hrd.readsBackAs

theorem C02_uint32_read_write (v : Version) (bs : Bytes) (h : bs.length = 4) :
    ∃ i, (0 ≤ i ∧ i < 2 ^ 32) ∧ ReadsBackAs v (readInt32 (signed := false)) bs i ∧
      writeInt32 i (signed := false) = .ok bs := by
  have hr := intFromBytes_range_unsigned bs
  have hw := intToBytes_intFromBytes bs false
  rw [h] at hr hw
  refine ⟨intFromBytes bs false, ⟨hr.1, by omega⟩, ?_, hw⟩
  obtain ⟨b, e, hrd⟩ := RW.uint32 (v := v) (i := intFromBytes bs false) (by unfold IsU32; omega)
  have : b = bs := by have := e.symm.trans hw; simpa using this
  subst this
  exact hrd.readsBackAs

example : ([0x18, 0xFC, 0xFF, 0xFF] : Bytes).length = 4 := rfl

/-! ## C03: out of range raises -/

theorem int_raises_iff (i : Int) (n : Nat) (s : Bool) :
    Raises (Int_to_bytes i n s) .overflowError ↔
      ¬ (if s then -(256 : Int) ^ n ≤ 2 * i ∧ 2 * i < 256 ^ n else 0 ≤ i ∧ i < 256 ^ n) := by
  unfold Raises Int_to_bytes intToBytes
  cases s <;> simp only [Bool.false_eq_true, if_true, if_false] <;> split <;> simp_all

/-- `write_int_8` raises `OverflowError` exactly outside 0 … 255 (and otherwise succeeds, C01). -/
theorem C03_int8_overflow (i : Int) : Raises (writeInt8 i) .overflowError ↔ ¬ (0 ≤ i ∧ i ≤ 255) := by
  unfold writeInt8; rw [int_raises_iff]
  simp only [Bool.false_eq_true, if_false]; omega

theorem C03_int16_overflow (i : Int) : Raises (writeInt16 i) .overflowError ↔ ¬ (-2 ^ 15 ≤ i ∧ i < 2 ^ 15) := by
  unfold writeInt16; rw [int_raises_iff]
  simp only [if_true]; omega

theorem C03_uint16_overflow (i : Int) :
    Raises (writeInt16 i (signed := false)) .overflowError ↔ ¬ (0 ≤ i ∧ i < 2 ^ 16) := by
  unfold writeInt16; rw [int_raises_iff]
  simp only [Bool.false_eq_true, if_false]; omega

theorem C03_int32_overflow (i : Int) : Raises (writeInt32 i) .overflowError ↔ ¬ (-2 ^ 31 ≤ i ∧ i < 2 ^ 31) := by
  unfold writeInt32; rw [int_raises_iff]
  simp only [if_true]; omega

theorem C03_uint32_overflow (i : Int) :
    Raises (writeInt32 i (signed := false)) .overflowError ↔ ¬ (0 ≤ i ∧ i < 2 ^ 32) := by
  unfold writeInt32; rw [int_raises_iff]
  simp only [Bool.false_eq_true, if_false]; omega

/-- Integer format characters of the struct-packed records raise `struct.error` exactly out of range. -/
theorem C03_struct_b (i : Int) : Raises (packCode .b (.int i)) .structError ↔ ¬ (-2 ^ 7 ≤ i ∧ i < 2 ^ 7) := by
  unfold Raises packCode intToBytes Code.size
  simp only [if_true]
  split <;> rename_i h <;> split at h <;> simp_all <;> omega

theorem C03_struct_h (i : Int) : Raises (packCode .h (.int i)) .structError ↔ ¬ (-2 ^ 15 ≤ i ∧ i < 2 ^ 15) := by
  unfold Raises packCode intToBytes Code.size
  simp only [if_true]
  split <;> rename_i h <;> split at h <;> simp_all <;> omega

theorem C03_struct_l (i : Int) : Raises (packCode .l (.int i)) .structError ↔ ¬ (-2 ^ 31 ≤ i ∧ i < 2 ^ 31) := by
  unfold Raises packCode intToBytes Code.size
  simp only [if_true]
  split <;> rename_i h <;> split at h <;> simp_all <;> omega

/-- Nothing wraps: two integers written (both signednesses, any width) as the same bytes are equal. -/
theorem C03_no_wrap (i j : Int) (n : Nat) (s : Bool) (bs : Bytes)
    (hi : Int_to_bytes i n s = .ok bs) (hj : Int_to_bytes j n s = .ok bs) : i = j := by
  have key : ∀ k, Int_to_bytes k n s = .ok bs → intFromBytes bs s = k := by
    intro k hk
    cases s with
    | true =>
      by_cases hr : -(256 : Int) ^ n ≤ 2 * k ∧ 2 * k < (256 : Int) ^ n
      · obtain ⟨b, h1, h2⟩ := intToBytes_signed_ok hr
        have : b = bs := by have := h1.symm.trans hk; simpa using this
        rw [← this]; exact h2
      · unfold Int_to_bytes intToBytes at hk; simp [hr] at hk
    | false =>
      by_cases hr : 0 ≤ k ∧ k < (256 : Int) ^ n
      · obtain ⟨b, h1, h2⟩ := intToBytes_unsigned_ok hr
        have : b = bs := by have := h1.symm.trans hk; simpa using this
        rw [← this]; exact h2
      · unfold Int_to_bytes intToBytes at hk; simp [hr] at hk
  rw [← key i hi, ← key j hj]

example : Raises (writeInt8 256) .overflowError := rfl
example : Raises (writeInt8 (-1)) .overflowError := rfl
example : Raises (writeInt16 32768) .overflowError := rfl

end Genie
