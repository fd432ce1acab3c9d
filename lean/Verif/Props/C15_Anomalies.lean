import Verif.Props.C11_C15_RoundTrip
import Verif.Props.C16_StructFormats
/-!
# C15, continued: what makes a file unclean

`C15_byte_exact_iff_clean` says that re-encoding is byte-exact exactly if the ghost flag is not raised.  The flag is raised
only by the primitives below and by one line of `DatFile.fromBytes` (no terrain restrictions, but a terrain count other than 0);
no other model function mentions it.  This file says exactly when each of them does.
-/

namespace Genie

/-- The data ends before the handler's offset. -/
def PastEnd (h' : ByteHandler) : Prop := h'.content.length < h'.offset

instance (h' : ByteHandler) : Decidable (PastEnd h') := by unfold PastEnd; exact inferInstance

theorem consumeRange_flag (n : Nat) (hn : 0 < n) (h : ByteHandler) :
    ∃ h', consumeRange n h = .ok ((h.content.drop h.offset).take n, h') ∧ h'.offset = h.offset + n ∧ h'.content = h.content ∧
      (h'.lossy = true ↔ h.lossy = true ∨ PastEnd h') := by
  refine ⟨{ h with offset := h.offset + n, lossy := h.lossy || decide (0 < n ∧ h.content.length < h.offset + n) },
    by rw [← slice_eq]; rfl, rfl, rfl, ?_⟩
  simp [PastEnd, hn]

/-- An integer: exactly if it lies (partly) past the end of the data. -/
theorem C15_int_flag (signed : Bool) (h h' : ByteHandler) (i : Int)
    (hr : readInt8 h = .ok (i, h') ∨ readInt16 signed h = .ok (i, h') ∨ readInt32 signed h = .ok (i, h')) :
    h'.lossy = true ↔ h.lossy = true ∨ PastEnd h' := by
  have key : ∀ n (s : Bool), 0 < n → (do let c ← consumeRange n; return Int_from_bytes c s : Reader Int) h = .ok (i, h') →
      (h'.lossy = true ↔ h.lossy = true ∨ PastEnd h') := by
    intro n s hn hr
    obtain ⟨k, h1, -, -, h4⟩ := consumeRange_flag n hn h
    rw [bind_ok h1] at hr
    cases hr; exact h4
  rcases hr with hr | hr | hr
  · exact key 1 _ (by omega) hr
  · exact key 2 _ (by omega) hr
  · exact key 4 _ (by omega) hr

/-- A float (which is never read past the end: that raises): exactly if it is a signalling NaN, that is, exponent bits all
ones, quiet bit zero, some other mantissa bit set. -/
theorem C15_float_flag (h h' : ByteHandler) (x : PyFloat) (hr : readFloat h = .ok (x, h')) :
    ¬ PastEnd h' ∧
    (h'.lossy = true ↔ h.lossy = true ∨ ∃ w, leNat ((h.content.drop h.offset).take 4) = w ∧
      w / 2 ^ 23 % 2 ^ 8 = 255 ∧ 0 < w % 2 ^ 23 ∧ w % 2 ^ 23 < 2 ^ 22) := by
  unfold readFloat at hr
  obtain ⟨k, h1, h2, h3, h4⟩ := consumeRange_flag 4 (by omega) h
  rw [bind_ok h1] at hr
  have hn : noteLossy (F.isSNaN32 (leNat ((h.content.drop h.offset).take 4))) k =
    .ok ((), { k with lossy := k.lossy || F.isSNaN32 (leNat ((h.content.drop h.offset).take 4)) }) := rfl
  rw [bind_ok hn] at hr
  unfold liftPy Float_from_bytes unpackNativeF at hr
  split at hr
  · cases hr
  · rename_i y hy
    split at hy
    · rename_i hl
      cases hr
      rw [List.length_take, List.length_drop] at hl
      have hp : ¬ PastEnd k := by unfold PastEnd; rw [h2, h3]; omega
      refine ⟨hp, ?_⟩
      simp only [Bool.or_eq_true, h4, hp, or_false]
      simp only [F.isSNaN32, F.exp32, F.man32, Bool.and_eq_true, beq_iff_eq, bne_iff_ne, exists_eq_left',
        Nat.pos_iff_ne_zero, and_assoc]
      exact or_congr Iff.rfl (and_congr Iff.rfl (and_congr Iff.rfl decide_eq_true_iff))
    · cases hy

/-- A debug string: exactly if it lies partly past the end of the data, or its payload (of the length it states) ends with a
NUL. -/
theorem C15_debug_string_flag (h h' : ByteHandler) (s : PyStr) (hr : readDebugString h = .ok (s, h')) :
    h'.lossy = true ↔ h.lossy = true ∨ PastEnd h' ∨
      ((h.content.drop (h.offset + 4)).take (h'.offset - (h.offset + 4))).getLast? = some 0 := by
  unfold readDebugString at hr
  have int2 : ∀ k : ByteHandler, ∃ k', readInt16 false k =
      .ok (Int_from_bytes ((k.content.drop k.offset).take 2) false, k') ∧ k'.offset = k.offset + 2 ∧ k'.content = k.content ∧
      (k'.lossy = true ↔ k.lossy = true ∨ PastEnd k') := by
    intro k
    obtain ⟨k', e1, e2, e3, e4⟩ := consumeRange_flag 2 (by omega) k
    exact ⟨k', by unfold readInt16; rw [bind_ok e1]; rfl, e2, e3, e4⟩
  obtain ⟨h1, r1, o1, c1, l1⟩ := int2 h
  rw [bind_ok r1] at hr
  split at hr
  · cases hr
  obtain ⟨h2, r2, o2, c2, l2⟩ := int2 h1
  rw [bind_ok r2] at hr
  generalize (Int_from_bytes ((h1.content.drop h1.offset).take 2) false).toNat = n at hr
  have hc : consumeRange n h2 = .ok ((h2.content.drop h2.offset).take n,
      { h2 with offset := h2.offset + n, lossy := h2.lossy || decide (0 < n ∧ h2.content.length < h2.offset + n) }) := by
    rw [← slice_eq]; rfl
  rw [bind_ok hc] at hr
  have hn : ∀ b (k : ByteHandler), noteLossy b k = .ok ((), { k with lossy := k.lossy || b }) := fun _ _ => rfl
  rw [bind_ok (hn _ _)] at hr
  unfold liftPy at hr
  split at hr
  · cases hr
  cases hr
  have hr : rstripNul ((h2.content.drop h2.offset).take n) ≠ (h2.content.drop h2.offset).take n ↔
      ((h2.content.drop h2.offset).take n).getLast? = some 0 := by
    rw [Ne, rstripNul_eq_self]; simp
  have e4 : h.offset + 2 + 2 + n - (h.offset + 4) = n := by omega
  simp only [Bool.or_eq_true, decide_eq_true_eq, l2, l1, PastEnd, o2, o1, c2, c1] at hr ⊢
  rw [hr, e4]
  constructor
  · intro h0
    rcases h0 with ((((h0 | h0) | h0) | h0) | h0)
    · exact Or.inl h0
    · exact Or.inr (Or.inl (by omega))
    · exact Or.inr (Or.inl (by omega))
    · exact Or.inr (Or.inl h0.2)
    · exact Or.inr (Or.inr h0)
  · intro h0
    rcases h0 with h0 | h0 | h0
    · exact Or.inl (Or.inl (Or.inl (Or.inl h0)))
    · by_cases hz : n = 0
      · exact Or.inl (Or.inl (Or.inr (by omega)))
      · exact Or.inl (Or.inr ⟨by omega, h0⟩)
    · exact Or.inr h0

/-- A struct-packed head (never read past the end either): exactly if some `f` of it is a signalling NaN. -/
theorem C15_struct_flag (fmt : String) (cs : List Code) (hf : parseFmt fmt = some cs) (n : Nat) (h h' : ByteHandler)
    (vs : List Val) (hn : 0 < n) (hc : calcsize fmt = .ok n) (hr : unpackFrom fmt n h = .ok (vs, h')) :
    ¬ PastEnd h' ∧ (h'.lossy = true ↔ h.lossy = true ∨ ¬ NoSignallingNaN cs ((h.content.drop h.offset).take n)) := by
  unfold unpackFrom at hr
  obtain ⟨k, h1, h2, h3, h4⟩ := consumeRange_flag n hn h
  rw [bind_ok h1] at hr
  have hnl : ∀ b (k : ByteHandler), noteLossy b k = .ok ((), { k with lossy := k.lossy || b }) := fun _ _ => rfl
  rw [bind_ok (hnl _ _)] at hr
  unfold liftPy structUnpack at hr
  simp only [hf, Option.getD_some] at hr
  by_cases hl : ((h.content.drop h.offset).take n).length = codesSize cs
  · simp only [hl, if_true] at hr
    cases hr
    by_cases hp : PastEnd k
    · unfold calcsize at hc; rw [hf] at hc; cases hc
      unfold PastEnd at hp
      rw [List.length_take, List.length_drop] at hl; rw [h2, h3] at hp; omega
    · refine ⟨hp, ?_⟩
      simp only [Bool.or_eq_true, h4, hp, or_false, ← codesHaveSNaN_iff, Bool.not_eq_false]
  · simp only [hl, if_false] at hr; cases hr

/-- The part of the flag a list adds to that of its elements: a negative count, unless the count is kept in the object
(`countStored`: only `angle_count` of `Graphic`). -/
theorem C15_array_flag (r : Reader α) (size : Int) (countStored : Bool) (h : ByteHandler) :
    readArray r size countStored h =
      repeatR r size.toNat { h with lossy := h.lossy || (!countStored && decide (size < 0)) } := rfl

/-- A slot: exactly if its pointer is neither 0 nor 1 (and what reading the element adds). -/
theorem C15_slot_flag (r : Reader α) (p : Int) (h : ByteHandler) :
    readClassArrayWithPointers r 1 [p] h =
      (do let element ← readIf (p ≠ 0) r
          return [element] : Reader (List (Option α))) { h with lossy := h.lossy || decide (p ≠ 0 ∧ p ≠ 1) } := rfl

/-! ## every kind of unclean input occurs, and does not survive -/

/-- Read a record and write it again. -/
def rewrite (c : RecordClass) (v : Version) (bs : Bytes) : Option Bytes :=
  (resultOf (c.fromBytes { ByteHandler.new bs with version := v })).bind fun r => resultOf (c.toBytes v r.1)

-- a signalling NaN
example : rewrite .EffectCommand .VER_88 ([1] ++ [0, 0, 0, 0, 0, 0] ++ [1, 0, 128, 127]) =
    some ([1] ++ [0, 0, 0, 0, 0, 0] ++ [1, 0, 192, 127]) := by decide +kernel
-- NUL padding in a debug string
example : rewrite .Effect .VER_88 ([0x60, 0x0A, 3, 0, 65, 0, 0] ++ [0, 0]) = some ([0x60, 0x0A, 1, 0, 65] ++ [0, 0]) := by
  decide +kernel
-- a negative count
example : rewrite .Effect .VER_88 ([0x60, 0x0A, 1, 0, 65] ++ [255, 255]) = some ([0x60, 0x0A, 1, 0, 65] ++ [0, 0]) := by
  decide +kernel
-- past the end
example : rewrite .TileSize .VER_88 [1, 0, 2, 0, 3] = some [1, 0, 2, 0, 3, 0] := by decide +kernel
-- and a clean one
example : rewrite .Effect .VER_88 ([0x60, 0x0A, 1, 0, 65] ++ [0, 0]) = some ([0x60, 0x0A, 1, 0, 65] ++ [0, 0]) := by
  decide +kernel

end Genie
