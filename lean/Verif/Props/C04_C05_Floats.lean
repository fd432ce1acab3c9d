import Verif.Proof.FloatValue
import Verif.Proof.Prims
import Verif.Proof.Api
/-!
# C04, C05: float fields

Floats are bit patterns; `value32`/`value64` (`Verif/Spec/Floats.lean`) give the numbers they denote.
-/

namespace Genie

/-- The pattern after which a read-and-write leaves the single `w`: a signalling NaN gets its quiet bit
(bit 22), everything else stays. -/
def quieted (w : Nat) : Nat := if SignallingNaN32 w then w + 2 ^ 22 else w

theorem isSNaN32_iff (w : Nat) : F.isSNaN32 w = true ↔ SignallingNaN32 w := by
  unfold F.isSNaN32 SignallingNaN32 F.exp32 F.man32
  simp only [Bool.and_eq_true, beq_iff_eq, bne_iff_ne, ne_eq, decide_eq_true_eq, and_assoc]

theorem quiet_eq (w : Nat) : F.quiet w = quieted w := by
  unfold F.quiet quieted
  by_cases h : SignallingNaN32 w
  · rw [if_pos h, (isSNaN32_iff w).2 h]; rfl
  · rw [if_neg h]
    have : F.isSNaN32 w = false := by
      cases hc : F.isSNaN32 w with
      | false => rfl
      | true => exact absurd ((isSNaN32_iff w).1 hc) h
    rw [this]; rfl

theorem readFloat_at {h : ByteHandler} {bs : Bytes} (hl : bs.length = 4)
    (hs : slice h.content h.offset (h.offset + 4) = bs) :
    readFloat h = .ok (floatOfBytes bs, { h with
      offset := h.offset + 4,
      lossy := (h.lossy || decide (0 < 4 ∧ h.content.length < h.offset + 4)) || F.isSNaN32 (leNat bs) }) := by
  subst hs
  have key : ∀ c : Bytes, c.length = 4 → ∀ k : ByteHandler, (liftPy (Float_from_bytes c) : Reader PyFloat) k =
      .ok (floatOfBytes c, k) := by
    intro c hc k; unfold liftPy Float_from_bytes unpackNativeF; rw [if_pos hc]
  exact key _ hl _

/-! ## C04 -/

/-- Any four bytes that are not a signalling NaN: read as some float, which is written as the very same
four bytes. -/
theorem C04_float_read_write (v : Version) (bs : Bytes) (h : bs.length = 4)
    (hs : ¬ SignallingNaN32 (leNat bs)) :
    ∃ x, ReadsBackAs v readFloat bs x ∧ writeFloat x = .ok bs := by
  have hs' : F.isSNaN32 (leNat bs) = false := by
    cases hc : F.isSNaN32 (leNat bs) with
    | false => rfl
    | true => exact absurd ((isSNaN32_iff _).1 hc) hs
  refine ⟨floatOfBytes bs, ?_, ?_⟩
  · obtain ⟨b, e, hrd⟩ := RW.float (v := v) (IsF32_floatOfBytes h)
    have : writeFloat (floatOfBytes bs) = .ok bs := by
      unfold writeFloat Float_to_bytes packNativeF; rw [bytesOfFloat_floatOfBytes_clean h hs']
    rw [this] at e
    simp only [Except.ok.injEq] at e
    subst e
    exact hrd.readsBackAs
  · unfold writeFloat Float_to_bytes packNativeF; rw [bytesOfFloat_floatOfBytes_clean h hs']

/-- All four-byte patterns, with signalling NaNs: the read always succeeds, consumes four bytes, and the
float read is written as the pattern with the quiet bit set. -/
theorem C04_float_read_write_all (v : Version) (bs pre post : Bytes) (h : bs.length = 4) (l : Bool) :
    ∃ x h', readFloat { content := pre ++ bs ++ post, offset := pre.length, version := v, lossy := l } = .ok (x, h') ∧
      h'.content = pre ++ bs ++ post ∧ h'.offset = pre.length + 4 ∧ h'.version = v ∧
      ∃ bs', writeFloat x = .ok bs' ∧ bs'.length = 4 ∧ leNat bs' = quieted (leNat bs) := by
  have hsl : slice (pre ++ bs ++ post) pre.length (pre.length + 4) = bs := by
    rw [slice_eq]; simp [← h]
  refine ⟨floatOfBytes bs, _, readFloat_at h hsl, ?_⟩
  refine ⟨rfl, rfl, rfl, _, rfl, bytesOfFloat_length _, ?_⟩
  rw [bytesOfFloat_floatOfBytes h, leNat_natLE, quiet_eq]
  have := F.quiet_lt (leNat_lt4 h)
  rw [quiet_eq] at this
  omega

/-- Reading is exact: a finite single is read as the double of the same value (and sign of zero). -/
theorem C04_float_read_exact (v : Version) (bs : Bytes) (h : bs.length = 4) (hf : Finite32 (leNat bs)) :
    ∃ x, ReadsBackAs v readFloat bs x ∧ Finite64 x.bits.toNat ∧
      value64 x.bits.toNat = value32 (leNat bs) ∧ x.bits.toNat / 2 ^ 63 = leNat bs / 2 ^ 31 := by
  have hs : ¬ SignallingNaN32 (leNat bs) := fun hs => hf hs.1
  obtain ⟨x, h1, h2⟩ := C04_float_read_write v bs h hs
  have hx : x = floatOfBytes bs := by
    obtain ⟨b, e, hrd⟩ := RW.float (v := v) (IsF32_floatOfBytes h)
    have hb : b = bs := by
      have hs' : F.isSNaN32 (leNat bs) = false := by
        cases hc : F.isSNaN32 (leNat bs) with
        | false => rfl
        | true => exact absurd ((isSNaN32_iff _).1 hc) hs
      unfold writeFloat Float_to_bytes packNativeF at e
      rw [bytesOfFloat_floatOfBytes_clean h hs'] at e
      simpa using e.symm
    subst hb
    exact h1.unique hrd.readsBackAs
  subst hx
  refine ⟨_, h1, ?_⟩
  rw [floatOfBytes_bits h]
  obtain ⟨a, b⟩ := F.value64_widen (leNat_lt4 h) hf
  refine ⟨a, b, ?_⟩
  obtain ⟨s, e, m, h1, hs, he, hm, hsg, hc⟩ := F.widen_spec (leNat_lt4 h)
  have := F.sign64_mk64 (s := s) he hm
  rw [← h1] at this
  exact this.trans hsg

-- 1.5, the smallest subnormal and a quiet NaN with payload satisfy the hypotheses; a signalling NaN does not
example : ¬ SignallingNaN32 (leNat [0x00, 0x00, 0xC0, 0x3F]) ∧ Finite32 (leNat [0x00, 0x00, 0xC0, 0x3F]) := by
  unfold SignallingNaN32 Finite32; decide
example : ¬ SignallingNaN32 (leNat [0x01, 0x00, 0x00, 0x80]) ∧ ¬ SignallingNaN32 (leNat [0x34, 0x12, 0xC0, 0x7F]) := by
  unfold SignallingNaN32; decide
example : SignallingNaN32 (leNat [0x01, 0x00, 0x80, 0x7F]) ∧
    quieted (leNat [0x01, 0x00, 0x80, 0x7F]) = leNat [0x01, 0x00, 0xC0, 0x7F] := by
  unfold quieted SignallingNaN32; decide

/-! ## C05 -/

/-- `write_float` always succeeds, with four bytes. -/
theorem C05_write_float_total (x : PyFloat) : ∃ bs, writeFloat x = .ok bs ∧ bs.length = 4 :=
  ⟨_, rfl, bytesOfFloat_length x⟩

/-- Writing and reading back returns the float itself exactly when single precision can represent it. -/
theorem C05_float_write_read_iff (v : Version) (x : PyFloat) :
    (∃ bs, writeFloat x = .ok bs ∧ ReadsBackAs v readFloat bs x) ↔ IsF32 x := by
  constructor
  · rintro ⟨bs, h1, h2⟩
    have hl : bs.length = 4 := by
      unfold writeFloat Float_to_bytes packNativeF at h1
      simp only [Except.ok.injEq] at h1; subst h1; exact bytesOfFloat_length x
    have h3 := h2 [] [] false
    rw [readFloat_at hl (by rw [slice_eq]; simp [← hl])] at h3
    simp only [Except.ok.injEq, Prod.mk.injEq] at h3
    rw [← h3.1]; exact IsF32_floatOfBytes hl
  · intro h
    exact (RW.float (v := v) h).readsBackAs

/-- For numbers, "representable" means that some single has exactly that value. -/
theorem C05_representable_iff (x : PyFloat) (hf : Finite64 x.bits.toNat) :
    IsF32 x ↔ ∃ w, w < 2 ^ 32 ∧ Finite32 w ∧ value32 w = value64 x.bits.toNat := IsF32_iff_value hf

/-- A number below the overflow threshold is written as a nearest single, ties going to the even mantissa. -/
theorem C05_float_write_nearest (x : PyFloat) (hf : Finite64 x.bits.toNat)
    (ho : (value64 x.bits.toNat).natAbs < overflowThreshold) :
    ∃ bs, writeFloat x = .ok bs ∧ bs.length = 4 ∧ NearestEven (value64 x.bits.toNat) (leNat bs) := by
  refine ⟨_, rfl, bytesOfFloat_length x, ?_⟩
  have hov : F.narrowOverflows x.bits.toNat = false := by
    cases hc : F.narrowOverflows x.bits.toNat with
    | false => rfl
    | true => have := (F.narrowOverflows_iff hf).1 hc; omega
  have hn := F.narrow_nearest x.bits.isLt hf hov
  have hlt : F.narrow x.bits.toNat < 2 ^ 32 := by
    have h1 := F.narrow_finite (d := x.bits.toNat) hf hov
    have h2 := F.sign64_lt x.bits.isLt
    rw [h1.1]; omega
  unfold bytesOfFloat
  rw [leNat_natLE, Nat.mod_eq_of_lt (by omega)]
  exact hn

/-- At or above the threshold `write_float` silently writes an infinity of the same sign, while the
struct-packed float fields raise `OverflowError`. -/
theorem C05_float_overflow (x : PyFloat) (hf : Finite64 x.bits.toNat)
    (ho : overflowThreshold ≤ (value64 x.bits.toNat).natAbs) :
    (∃ bs, writeFloat x = .ok bs ∧ leNat bs = x.bits.toNat / 2 ^ 63 * 2 ^ 31 + 255 * 2 ^ 23) ∧
    packCode .f (.float x) = .error .overflowError := by
  have hov := (F.narrowOverflows_iff hf).2 ho
  refine ⟨⟨_, rfl, ?_⟩, by simp [packCode, hov]⟩
  have hs := F.sign64_lt x.bits.isLt
  have hf' : F.exp64 x.bits.toNat ≠ 2047 := hf
  have : F.narrow x.bits.toNat = F.sign64 x.bits.toNat * 2 ^ 31 + 255 * 2 ^ 23 := by
    unfold F.narrow; simp only; rw [if_neg hf', hov]; rfl
  unfold bytesOfFloat
  rw [leNat_natLE, this, Nat.mod_eq_of_lt (by omega)]
  rfl

/-- Below the threshold, both ways of writing a number agree. -/
theorem C05_struct_float_agrees (x : PyFloat) (hf : Finite64 x.bits.toNat)
    (ho : (value64 x.bits.toNat).natAbs < overflowThreshold) :
    packCode .f (.float x) = writeFloat x := by
  have hov : F.narrowOverflows x.bits.toNat = false := by
    cases hc : F.narrowOverflows x.bits.toNat with
    | false => rfl
    | true => have := (F.narrowOverflows_iff hf).1 hc; omega
  simp [packCode, hov, writeFloat, Float_to_bytes, packNativeF]

-- 0.1 is a number below the threshold that is not representable; 1.5 is representable
example : Finite64 (PyFloat.mk 0x3FB999999999999A#64).bits.toNat ∧ ¬ IsF32 ⟨0x3FB999999999999A#64⟩ ∧
    IsF32 ⟨0x3FF8000000000000#64⟩ := by unfold Finite64; decide
example : (value64 (PyFloat.mk 0x3FB999999999999A#64).bits.toNat).natAbs < overflowThreshold := by
  set_option exponentiation.threshold 2000 in decide +kernel
example : writeFloat ⟨0x3FB999999999999A#64⟩ = .ok [0xCD, 0xCC, 0xCC, 0x3D] := rfl
-- 1e300 is above the threshold
example : overflowThreshold ≤ (value64 (PyFloat.mk 0x7E37E43C8800759C#64).bits.toNat).natAbs := by
  set_option exponentiation.threshold 2000 in decide +kernel
example : writeFloat ⟨0x7E37E43C8800759C#64⟩ = .ok [0x00, 0x00, 0x80, 0x7F] := rfl

end Genie
