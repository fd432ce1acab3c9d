import Verif.Props.C47_SavingObjects
import Verif.Props.C04_C05_Floats
import Verif.Proof.NearestInt
/-!
# C47, continued: which objects the primitive writers take, and the conditions on objects of any type
-/

namespace Genie

/-- A float field takes floats and those `int`s that `float(…)` takes; everything else is `struct.error`. -/
theorem C47_float_field (o : HVal) :
    (∃ x, o = .float x ∧ W.float (.ok o) = .ok (bytesOfFloat x)) ∨
    (∃ i d, o = .int i ∧ F.ofInt i = some d ∧ W.float (.ok o) = .ok (bytesOfFloat ⟨BitVec.ofNat 64 d⟩)) ∨
    ((∀ x, o ≠ .float x) ∧ (∀ i d, o = .int i → F.ofInt i ≠ some d) ∧ W.float (.ok o) = .error .structError) := by
  cases o with
  | float x => exact .inl ⟨x, rfl, rfl⟩
  | int i =>
    cases h : F.ofInt i with
    | some d => exact .inr (.inl ⟨i, d, rfl, h, by simp [W.float, W.packNative, bind, Except.bind, h, packNativeF]⟩)
    | none =>
      refine .inr (.inr ⟨(nofun), fun j d e => ?_, by simp [W.float, W.packNative, bind, Except.bind, h]⟩)
      cases e
      rw [h]
      exact nofun
  | none => exact .inr (.inr ⟨(nofun), (nofun), rfl⟩)
  | str s => exact .inr (.inr ⟨(nofun), (nofun), rfl⟩)
  | ref a => exact .inr (.inr ⟨(nofun), (nofun), rfl⟩)

/-- An `int` in a float field is written as the nearest double, and this as the nearest single (`C05_float_write_nearest`); `struct.error` if
it is too large for a double. -/
theorem C47_int_as_float (i : Int) :
    (i.natAbs < intTooLarge → ∃ d, d < 2 ^ 64 ∧ NearestEven64 (i * 2 ^ 1074) d ∧ W.float (.ok (.int i)) = writeFloat ⟨BitVec.ofNat 64 d⟩) ∧
    (intTooLarge ≤ i.natAbs → W.float (.ok (.int i)) = .error .structError) := by
  constructor
  · intro h
    cases e : F.ofInt i with
    | none => exact absurd ((F.ofInt_none_iff i).1 e) (by omega)
    | some d =>
      obtain ⟨h1, h2⟩ := F.ofInt_nearest e
      exact ⟨d, h1, h2, by simp [W.float, W.packNative, bind, Except.bind, e, writeFloat, Float_to_bytes]⟩
  · intro h
    simp [W.float, W.packNative, bind, Except.bind, (F.ofInt_none_iff i).2 h]

/-- An `int` of at most 24 bits in a float field comes back as the float that has exactly this value. -/
theorem C47_small_int_as_float (v : Version) (i : Int) (h : i.natAbs < 2 ^ 24) :
    ∃ (x : PyFloat) (bs : Bytes), Finite64 x.bits.toNat ∧ value64 x.bits.toNat = i * 2 ^ 1074 ∧ W.float (.ok (.int i)) = .ok bs ∧
      ReadsBackAs v readFloat bs x := by
  obtain ⟨d, h1, h2, h3, h4⟩ := F.ofInt_exact (i := i) (by omega)
  have hb : (BitVec.ofNat 64 d).toNat = d := by rw [BitVec.toNat_ofNat, Nat.mod_eq_of_lt h2]
  obtain ⟨w, w1, w2, w3⟩ := F.single_of_int h
  have hx : IsF32 ⟨BitVec.ofNat 64 d⟩ := by
    refine (C05_representable_iff ⟨BitVec.ofNat 64 d⟩ (by rw [hb]; exact h3)).2 ⟨w, w1, w2, ?_⟩
    rw [w3, hb, h4]
  obtain ⟨bs, k1, k2⟩ := (C05_float_write_read_iff v ⟨BitVec.ofNat 64 d⟩).2 hx
  refine ⟨_, bs, by rw [hb]; exact h3, by rw [hb]; exact h4, ?_, k2⟩
  rw [← k1]
  simp [W.float, W.packNative, bind, Except.bind, h1, writeFloat, Float_to_bytes]

/-- 69 comes back as 69.0; 2^53 + 1 is between two doubles, the even one is 2^53, which is written. -/
example : Int.natAbs 69 < 2 ^ 24 ∧ (2 ^ 53 + 1 : Int).natAbs < intTooLarge ∧
    resultOf (W.float (.ok (.int (2 ^ 53 + 1)))) = resultOf (writeFloat ⟨0x4340000000000000⟩) ∧
    intTooLarge ≤ (10 ^ 309 : Int).natAbs := by
  set_option exponentiation.threshold 2000 in decide +kernel

/-- An `int` field takes `int`s as the value model does (`OverflowError` out of range, C03); `TypeError` for an instance of a record class (which has a method
`to_bytes` of its own), `AttributeError` for everything else — floats, strings, `None`, lists, tuples. -/
theorem C47_int_field (H : Heap) (o : HVal) :
    (∃ i, o = .int i ∧ W.int8 H (.ok o) = writeInt8 i ∧ W.int16 H (.ok o) = writeInt16 i ∧ W.int32 H (.ok o) = writeInt32 i) ∨
    (∃ a c as, o = .ref a ∧ H[a]? = some (.record c as) ∧ W.int8 H (.ok o) = .error .typeError ∧ W.int16 H (.ok o) = .error .typeError ∧
      W.int32 H (.ok o) = .error .typeError) ∨
    ((∀ i, o ≠ .int i) ∧ (∀ a c as, o = .ref a → H[a]? ≠ some (.record c as)) ∧ W.int8 H (.ok o) = .error .attributeError ∧
      W.int16 H (.ok o) = .error .attributeError ∧ W.int32 H (.ok o) = .error .attributeError) := by
  cases o with
  | int i => exact .inl ⟨i, rfl, rfl, rfl, rfl⟩
  | ref a =>
    cases h : H[a]? with
    | none => exact .inr (.inr ⟨(nofun), fun b c as e => by cases e; rw [h]; exact nofun, by simp [W.int8, W.int16, W.int32, W.intToBytes, W.cell, h, bind, Except.bind]⟩)
    | some x =>
      cases x with
      | record c as => exact .inr (.inl ⟨a, c, as, rfl, h, by simp [W.int8, W.int16, W.int32, W.intToBytes, W.cell, h, bind, Except.bind]⟩)
      | list vs => exact .inr (.inr ⟨(nofun), fun b c as e => by cases e; rw [h]; exact nofun, by simp [W.int8, W.int16, W.int32, W.intToBytes, W.cell, h, bind, Except.bind]⟩)
      | tuple vs => exact .inr (.inr ⟨(nofun), fun b c as e => by cases e; rw [h]; exact nofun, by simp [W.int8, W.int16, W.int32, W.intToBytes, W.cell, h, bind, Except.bind]⟩)
  | none => exact .inr (.inr ⟨(nofun), (nofun), rfl, rfl, rfl⟩)
  | float x => exact .inr (.inr ⟨(nofun), (nofun), rfl, rfl, rfl⟩)
  | str s => exact .inr (.inr ⟨(nofun), (nofun), rfl, rfl, rfl⟩)

/-- The objects that `if o:` takes for false. -/
theorem C47_truth (H : Heap) (o : HVal) : W.truthy H o = false ↔
    o = .none ∨ o = .int 0 ∨ o = .float ⟨0⟩ ∨ o = .float ⟨0x8000000000000000⟩ ∨ o = .str [] ∨
    ∃ a, o = .ref a ∧ (H[a]? = some (.list []) ∨ H[a]? = some (.tuple [])) := by
  cases o with
  | none => simp [W.truthy]
  | int i => simp [W.truthy]
  | float x =>
    obtain ⟨b⟩ := x
    simp only [W.truthy, bne_eq_false_iff_eq, HVal.float.injEq, PyFloat.mk.injEq, reduceCtorEq, false_or, false_and, exists_false, or_false]
    constructor
    · intro h
      have := b.isLt
      rcases Nat.lt_or_ge b.toNat (2 ^ 63) with l | l
      · exact .inl (BitVec.eq_of_toNat_eq (by show b.toNat = 0; omega))
      · exact .inr (BitVec.eq_of_toNat_eq (by show b.toNat = 0x8000000000000000; omega))
    · rintro (rfl | rfl) <;> decide
  | str s => cases s <;> simp [W.truthy]
  | ref a =>
    cases h : H[a]? with
    | none => simp [W.truthy, W.cell, h]
    | some x => cases x <;> simp [W.truthy, W.cell, h]

/-- Comparisons of an infinity or a NaN with an `int`: never equal; only `inf` is at least as large. -/
theorem C47_compare_inf (n : Int) (x : PyFloat) (hx : F.exp64 x.bits.toNat = 2047) :
    W.eqInt (.ok (.float x)) n = .ok false ∧ W.neInt (.ok (.float x)) n = .ok true ∧
    W.geInt (.ok (.float x)) n = .ok (decide (x = ⟨0x7FF0000000000000⟩)) := by
  have e1 : W.eqInt (.ok (.float x)) n = .ok false := by simp [W.eqInt, bind, Except.bind, hx]
  refine ⟨e1, by unfold W.neInt; rw [e1]; rfl, ?_⟩
  obtain ⟨b⟩ := x
  simp only [W.geInt, bind, Except.bind, hx, if_true]
  congr 1
  dsimp only at hx
  rw [Bool.eq_iff_iff]
  simp only [Bool.and_eq_true, beq_iff_eq, decide_eq_true_eq, PyFloat.mk.injEq]
  have := b.isLt
  simp only [F.exp64, F.man64, F.sign64] at *
  constructor
  · rintro ⟨h1, h2⟩
    exact BitVec.eq_of_toNat_eq (by show b.toNat = 0x7FF0000000000000; omega)
  · rintro rfl
    exact ⟨rfl, rfl⟩

/-- Comparisons with objects that are no numbers: `==` is false, `>=` raises `TypeError`. -/
theorem C47_compare_other (n : Int) (o : HVal) (h1 : ∀ i, o ≠ .int i) (h2 : ∀ x, o ≠ .float x) :
    W.eqInt (.ok o) n = .ok false ∧ W.neInt (.ok o) n = .ok true ∧ W.geInt (.ok o) n = .error .typeError := by
  cases o with
  | int i => exact absurd rfl (h1 i)
  | float x => exact absurd rfl (h2 x)
  | none => exact ⟨rfl, rfl, rfl⟩
  | str s => exact ⟨rfl, rfl, rfl⟩
  | ref a => exact ⟨rfl, rfl, rfl⟩

/-- `70.0 == 70`, `79.5 >= 70`, not `69.5 >= 70`, not `-70.0 == 70`, and `10**400` in a float field. -/
example : resultOf (W.eqInt (.ok (.float ⟨0x4051800000000000⟩)) 70) = some true ∧
    resultOf (W.geInt (.ok (.float ⟨0x4053E00000000000⟩)) 70) = some true ∧
    resultOf (W.geInt (.ok (.float ⟨0x4051600000000000⟩)) 70) = some false ∧
    resultOf (W.eqInt (.ok (.float ⟨0xC051800000000000⟩)) 70) = some false ∧
    errorOf (W.float (.ok (.int (10 ^ 400)))) = some .structError := by decide +kernel

end Genie
