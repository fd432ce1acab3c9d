import Verif.Proof.Struct
/-! # `RW` and `Good` for arrays, tuples, sub-records and optional parts -/

namespace Genie

/-! ## lists of known length -/

theorem length_eq_1 {l : List α} (h : l.length = 1) : ∃ e0, l = [e0] := by
  match l, h with
  | [e0], _ => exact ⟨e0, rfl⟩

theorem length_eq_2 {l : List α} (h : l.length = 2) : ∃ e0 e1, l = [e0, e1] := by
  match l, h with
  | [e0, e1], _ => exact ⟨e0, e1, rfl⟩

theorem length_eq_3 {l : List α} (h : l.length = 3) : ∃ e0 e1 e2, l = [e0, e1, e2] := by
  match l, h with
  | [e0, e1, e2], _ => exact ⟨e0, e1, e2, rfl⟩

theorem length_eq_6 {l : List α} (h : l.length = 6) : ∃ e0 e1 e2 e3 e4 e5, l = [e0, e1, e2, e3, e4, e5] := by
  match l, h with
  | [e0, e1, e2, e3, e4, e5], _ => exact ⟨e0, e1, e2, e3, e4, e5, rfl⟩

/-! ## counts -/

theorem isU8_len {n : Nat} (h : n ≤ 255) : IsU8 (n : Int) := by unfold IsU8; omega
theorem isI16_len {n : Nat} (h : n ≤ 32767) : IsI16 (n : Int) := by unfold IsI16; omega
theorem isU16_len {n : Nat} (h : n ≤ 65535) : IsU16 (n : Int) := by unfold IsU16; omega
theorem isI32_len {n : Nat} (h : n ≤ 2147483647) : IsI32 (n : Int) := by unfold IsI32; omega
theorem isU32_len {n : Nat} (h : n ≤ 4294967295) : IsU32 (n : Int) := by unfold IsU32; omega

theorem upTo_u8 {p : α → Prop} {l : List α} {n : Int} (hn : IsU8 n) (h : l.length = n.toNat ∧ AllOf p l) :
    UpTo 255 p l := ⟨by unfold IsU8 at hn; omega, h.2⟩
theorem upTo_i16 {p : α → Prop} {l : List α} {n : Int} (hn : IsI16 n) (h : l.length = n.toNat ∧ AllOf p l) :
    UpTo 32767 p l := ⟨by unfold IsI16 at hn; omega, h.2⟩
theorem upTo_i32 {p : α → Prop} {l : List α} {n : Int} (hn : IsI32 n) (h : l.length = n.toNat ∧ AllOf p l) :
    UpTo 2147483647 p l := ⟨by unfold IsI32 at hn; omega, h.2⟩
theorem upTo_u32 {p : α → Prop} {l : List α} {n : Int} (hn : IsU32 n) (h : l.length = n.toNat ∧ AllOf p l) :
    UpTo 4294967295 p l := ⟨by unfold IsU32 at hn; omega, h.2⟩

/-! ## arrays of scalars -/

theorem RW.int8Array {v : Version} {l : List Int} {n : Int} (hn : n = l.length) (h : AllOf IsU8 l) :
    RW v (readInt8Array n) (writeInt8Array l) l := RW.array hn fun x hx => RW.int8 (h x hx)

theorem Good.int8Array {v : Version} (n : Int) :
    Good v (readInt8Array n) (fun l => l.length = n.toNat ∧ AllOf IsU8 l)
      (fun l bs => n = l.length ∧ writeInt8Array l = .ok bs) := Good.array n Good.int8

theorem RW.int16Array {v : Version} {l : List Int} {n : Int} (hn : n = l.length) (h : AllOf IsI16 l) :
    RW v (readInt16Array n) (writeInt16Array l) l := RW.array hn fun x hx => RW.int16 (h x hx)

theorem Good.int16Array {v : Version} (n : Int) :
    Good v (readInt16Array n) (fun l => l.length = n.toNat ∧ AllOf IsI16 l)
      (fun l bs => n = l.length ∧ writeInt16Array l = .ok bs) := Good.array n Good.int16

theorem RW.int32Array {v : Version} {l : List Int} {n : Int} (hn : n = l.length) (h : AllOf IsI32 l) :
    RW v (readInt32Array n) (writeInt32Array l) l := RW.array hn fun x hx => RW.int32 (h x hx)

theorem Good.int32Array {v : Version} (n : Int) :
    Good v (readInt32Array n) (fun l => l.length = n.toNat ∧ AllOf IsI32 l)
      (fun l bs => n = l.length ∧ writeInt32Array l = .ok bs) := Good.array n Good.int32

theorem RW.floatArray {v : Version} {l : List PyFloat} {n : Int} (hn : n = l.length) (h : AllOf IsF32 l) :
    RW v (readFloatArray n) (writeFloatArray l) l := RW.array hn fun x hx => RW.float (h x hx)

theorem Good.floatArray {v : Version} (n : Int) :
    Good v (readFloatArray n) (fun l => l.length = n.toNat ∧ AllOf IsF32 l)
      (fun l bs => n = l.length ∧ writeFloatArray l = .ok bs) := Good.array n Good.float

/-! ## tuples -/

theorem RW.int8Array2 {v : Version} {l : List Int} (h : Exactly 2 IsU8 l) :
    RW v readInt8Array2 (writeInt8Array l) l := by
  obtain ⟨h1, h2⟩ := h
  match l, h1 with
  | [e0, e1], _ =>
    refine RW.bind (RW.int8 (h2 e0 (by simp))) ?_
    refine RW.bind (RW.int8 (h2 e1 (by simp))) ?_
    exact RW.pure rfl

theorem Good.int8Array2 {v : Version} :
    Good v readInt8Array2 (Exactly 2 IsU8) (fun l bs => writeInt8Array l = .ok bs) := by
  unfold readInt8Array2
  refine Good.bind Good.int8 fun e0 h0 => ?_
  refine Good.bind Good.int8 fun e1 h1 => ?_
  refine Good.pure ⟨rfl, ?_⟩ ?_
  · intro y hy
    simp only [List.mem_cons, List.not_mem_nil, or_false] at hy
    rcases hy with rfl | rfl <;> assumption
  · intro b1 k1 b0 k0
    exact joinB_cons_ok k0 (joinB_cons_ok k1 rfl)

theorem RW.int8Array3 {v : Version} {l : List Int} (h : Exactly 3 IsU8 l) :
    RW v readInt8Array3 (writeInt8Array l) l := by
  obtain ⟨h1, h2⟩ := h
  match l, h1 with
  | [e0, e1, e2], _ =>
    refine RW.bind (RW.int8 (h2 e0 (by simp))) ?_
    refine RW.bind (RW.int8 (h2 e1 (by simp))) ?_
    refine RW.bind (RW.int8 (h2 e2 (by simp))) ?_
    exact RW.pure rfl

theorem Good.int8Array3 {v : Version} :
    Good v readInt8Array3 (Exactly 3 IsU8) (fun l bs => writeInt8Array l = .ok bs) := by
  unfold readInt8Array3
  refine Good.bind Good.int8 fun e0 h0 => ?_
  refine Good.bind Good.int8 fun e1 h1 => ?_
  refine Good.bind Good.int8 fun e2 h2 => ?_
  refine Good.pure ⟨rfl, ?_⟩ ?_
  · intro y hy
    simp only [List.mem_cons, List.not_mem_nil, or_false] at hy
    rcases hy with rfl | rfl | rfl <;> assumption
  · intro b2 k2 b1 k1 b0 k0
    exact joinB_cons_ok k0 (joinB_cons_ok k1 (joinB_cons_ok k2 rfl))

theorem RW.int8Array5 {v : Version} {l : List Int} (h : Exactly 5 IsU8 l) :
    RW v readInt8Array5 (writeInt8Array l) l := by
  obtain ⟨h1, h2⟩ := h
  match l, h1 with
  | [e0, e1, e2, e3, e4], _ =>
    refine RW.bind (RW.int8 (h2 e0 (by simp))) ?_
    refine RW.bind (RW.int8 (h2 e1 (by simp))) ?_
    refine RW.bind (RW.int8 (h2 e2 (by simp))) ?_
    refine RW.bind (RW.int8 (h2 e3 (by simp))) ?_
    refine RW.bind (RW.int8 (h2 e4 (by simp))) ?_
    exact RW.pure rfl

theorem Good.int8Array5 {v : Version} :
    Good v readInt8Array5 (Exactly 5 IsU8) (fun l bs => writeInt8Array l = .ok bs) := by
  unfold readInt8Array5
  refine Good.bind Good.int8 fun e0 h0 => ?_
  refine Good.bind Good.int8 fun e1 h1 => ?_
  refine Good.bind Good.int8 fun e2 h2 => ?_
  refine Good.bind Good.int8 fun e3 h3 => ?_
  refine Good.bind Good.int8 fun e4 h4 => ?_
  refine Good.pure ⟨rfl, ?_⟩ ?_
  · intro y hy
    simp only [List.mem_cons, List.not_mem_nil, or_false] at hy
    rcases hy with rfl | rfl | rfl | rfl | rfl <;> assumption
  · intro b4 k4 b3 k3 b2 k2 b1 k1 b0 k0
    exact joinB_cons_ok k0 (joinB_cons_ok k1 (joinB_cons_ok k2 (joinB_cons_ok k3 (joinB_cons_ok k4 rfl))))

theorem RW.int8Array6 {v : Version} {l : List Int} (h : Exactly 6 IsU8 l) :
    RW v readInt8Array6 (writeInt8Array l) l := by
  obtain ⟨h1, h2⟩ := h
  match l, h1 with
  | [e0, e1, e2, e3, e4, e5], _ =>
    refine RW.bind (RW.int8 (h2 e0 (by simp))) ?_
    refine RW.bind (RW.int8 (h2 e1 (by simp))) ?_
    refine RW.bind (RW.int8 (h2 e2 (by simp))) ?_
    refine RW.bind (RW.int8 (h2 e3 (by simp))) ?_
    refine RW.bind (RW.int8 (h2 e4 (by simp))) ?_
    refine RW.bind (RW.int8 (h2 e5 (by simp))) ?_
    exact RW.pure rfl

theorem Good.int8Array6 {v : Version} :
    Good v readInt8Array6 (Exactly 6 IsU8) (fun l bs => writeInt8Array l = .ok bs) := by
  unfold readInt8Array6
  refine Good.bind Good.int8 fun e0 h0 => ?_
  refine Good.bind Good.int8 fun e1 h1 => ?_
  refine Good.bind Good.int8 fun e2 h2 => ?_
  refine Good.bind Good.int8 fun e3 h3 => ?_
  refine Good.bind Good.int8 fun e4 h4 => ?_
  refine Good.bind Good.int8 fun e5 h5 => ?_
  refine Good.pure ⟨rfl, ?_⟩ ?_
  · intro y hy
    simp only [List.mem_cons, List.not_mem_nil, or_false] at hy
    rcases hy with rfl | rfl | rfl | rfl | rfl | rfl <;> assumption
  · intro b5 k5 b4 k4 b3 k3 b2 k2 b1 k1 b0 k0
    exact joinB_cons_ok k0 (joinB_cons_ok k1 (joinB_cons_ok k2 (joinB_cons_ok k3 (joinB_cons_ok k4 (joinB_cons_ok k5 rfl)))))

theorem RW.int8Array10 {v : Version} {l : List Int} (h : Exactly 10 IsU8 l) :
    RW v readInt8Array10 (writeInt8Array l) l := by
  obtain ⟨h1, h2⟩ := h
  match l, h1 with
  | [e0, e1, e2, e3, e4, e5, e6, e7, e8, e9], _ =>
    refine RW.bind (RW.int8 (h2 e0 (by simp))) ?_
    refine RW.bind (RW.int8 (h2 e1 (by simp))) ?_
    refine RW.bind (RW.int8 (h2 e2 (by simp))) ?_
    refine RW.bind (RW.int8 (h2 e3 (by simp))) ?_
    refine RW.bind (RW.int8 (h2 e4 (by simp))) ?_
    refine RW.bind (RW.int8 (h2 e5 (by simp))) ?_
    refine RW.bind (RW.int8 (h2 e6 (by simp))) ?_
    refine RW.bind (RW.int8 (h2 e7 (by simp))) ?_
    refine RW.bind (RW.int8 (h2 e8 (by simp))) ?_
    refine RW.bind (RW.int8 (h2 e9 (by simp))) ?_
    exact RW.pure rfl

theorem Good.int8Array10 {v : Version} :
    Good v readInt8Array10 (Exactly 10 IsU8) (fun l bs => writeInt8Array l = .ok bs) := by
  unfold readInt8Array10
  refine Good.bind Good.int8 fun e0 h0 => ?_
  refine Good.bind Good.int8 fun e1 h1 => ?_
  refine Good.bind Good.int8 fun e2 h2 => ?_
  refine Good.bind Good.int8 fun e3 h3 => ?_
  refine Good.bind Good.int8 fun e4 h4 => ?_
  refine Good.bind Good.int8 fun e5 h5 => ?_
  refine Good.bind Good.int8 fun e6 h6 => ?_
  refine Good.bind Good.int8 fun e7 h7 => ?_
  refine Good.bind Good.int8 fun e8 h8 => ?_
  refine Good.bind Good.int8 fun e9 h9 => ?_
  refine Good.pure ⟨rfl, ?_⟩ ?_
  · intro y hy
    simp only [List.mem_cons, List.not_mem_nil, or_false] at hy
    rcases hy with rfl | rfl | rfl | rfl | rfl | rfl | rfl | rfl | rfl | rfl <;> assumption
  · intro b9 k9 b8 k8 b7 k7 b6 k6 b5 k5 b4 k4 b3 k3 b2 k2 b1 k1 b0 k0
    exact joinB_cons_ok k0 (joinB_cons_ok k1 (joinB_cons_ok k2 (joinB_cons_ok k3 (joinB_cons_ok k4 (joinB_cons_ok k5 (joinB_cons_ok k6 (joinB_cons_ok k7 (joinB_cons_ok k8 (joinB_cons_ok k9 rfl)))))))))

theorem RW.int16Array2 {v : Version} {l : List Int} (h : Exactly 2 IsI16 l) :
    RW v readInt16Array2 (writeInt16Array l) l := by
  obtain ⟨h1, h2⟩ := h
  match l, h1 with
  | [e0, e1], _ =>
    refine RW.bind (RW.int16 (h2 e0 (by simp))) ?_
    refine RW.bind (RW.int16 (h2 e1 (by simp))) ?_
    exact RW.pure rfl

theorem Good.int16Array2 {v : Version} :
    Good v readInt16Array2 (Exactly 2 IsI16) (fun l bs => writeInt16Array l = .ok bs) := by
  unfold readInt16Array2
  refine Good.bind Good.int16 fun e0 h0 => ?_
  refine Good.bind Good.int16 fun e1 h1 => ?_
  refine Good.pure ⟨rfl, ?_⟩ ?_
  · intro y hy
    simp only [List.mem_cons, List.not_mem_nil, or_false] at hy
    rcases hy with rfl | rfl <;> assumption
  · intro b1 k1 b0 k0
    exact joinB_cons_ok k0 (joinB_cons_ok k1 rfl)

theorem RW.int16Array3 {v : Version} {l : List Int} (h : Exactly 3 IsI16 l) :
    RW v readInt16Array3 (writeInt16Array l) l := by
  obtain ⟨h1, h2⟩ := h
  match l, h1 with
  | [e0, e1, e2], _ =>
    refine RW.bind (RW.int16 (h2 e0 (by simp))) ?_
    refine RW.bind (RW.int16 (h2 e1 (by simp))) ?_
    refine RW.bind (RW.int16 (h2 e2 (by simp))) ?_
    exact RW.pure rfl

theorem Good.int16Array3 {v : Version} :
    Good v readInt16Array3 (Exactly 3 IsI16) (fun l bs => writeInt16Array l = .ok bs) := by
  unfold readInt16Array3
  refine Good.bind Good.int16 fun e0 h0 => ?_
  refine Good.bind Good.int16 fun e1 h1 => ?_
  refine Good.bind Good.int16 fun e2 h2 => ?_
  refine Good.pure ⟨rfl, ?_⟩ ?_
  · intro y hy
    simp only [List.mem_cons, List.not_mem_nil, or_false] at hy
    rcases hy with rfl | rfl | rfl <;> assumption
  · intro b2 k2 b1 k1 b0 k0
    exact joinB_cons_ok k0 (joinB_cons_ok k1 (joinB_cons_ok k2 rfl))

theorem RW.int16Array4 {v : Version} {l : List Int} (h : Exactly 4 IsI16 l) :
    RW v readInt16Array4 (writeInt16Array l) l := by
  obtain ⟨h1, h2⟩ := h
  match l, h1 with
  | [e0, e1, e2, e3], _ =>
    refine RW.bind (RW.int16 (h2 e0 (by simp))) ?_
    refine RW.bind (RW.int16 (h2 e1 (by simp))) ?_
    refine RW.bind (RW.int16 (h2 e2 (by simp))) ?_
    refine RW.bind (RW.int16 (h2 e3 (by simp))) ?_
    exact RW.pure rfl

theorem Good.int16Array4 {v : Version} :
    Good v readInt16Array4 (Exactly 4 IsI16) (fun l bs => writeInt16Array l = .ok bs) := by
  unfold readInt16Array4
  refine Good.bind Good.int16 fun e0 h0 => ?_
  refine Good.bind Good.int16 fun e1 h1 => ?_
  refine Good.bind Good.int16 fun e2 h2 => ?_
  refine Good.bind Good.int16 fun e3 h3 => ?_
  refine Good.pure ⟨rfl, ?_⟩ ?_
  · intro y hy
    simp only [List.mem_cons, List.not_mem_nil, or_false] at hy
    rcases hy with rfl | rfl | rfl | rfl <;> assumption
  · intro b3 k3 b2 k2 b1 k1 b0 k0
    exact joinB_cons_ok k0 (joinB_cons_ok k1 (joinB_cons_ok k2 (joinB_cons_ok k3 rfl)))

theorem RW.int16Array6 {v : Version} {l : List Int} (h : Exactly 6 IsI16 l) :
    RW v readInt16Array6 (writeInt16Array l) l := by
  obtain ⟨h1, h2⟩ := h
  match l, h1 with
  | [e0, e1, e2, e3, e4, e5], _ =>
    refine RW.bind (RW.int16 (h2 e0 (by simp))) ?_
    refine RW.bind (RW.int16 (h2 e1 (by simp))) ?_
    refine RW.bind (RW.int16 (h2 e2 (by simp))) ?_
    refine RW.bind (RW.int16 (h2 e3 (by simp))) ?_
    refine RW.bind (RW.int16 (h2 e4 (by simp))) ?_
    refine RW.bind (RW.int16 (h2 e5 (by simp))) ?_
    exact RW.pure rfl

theorem Good.int16Array6 {v : Version} :
    Good v readInt16Array6 (Exactly 6 IsI16) (fun l bs => writeInt16Array l = .ok bs) := by
  unfold readInt16Array6
  refine Good.bind Good.int16 fun e0 h0 => ?_
  refine Good.bind Good.int16 fun e1 h1 => ?_
  refine Good.bind Good.int16 fun e2 h2 => ?_
  refine Good.bind Good.int16 fun e3 h3 => ?_
  refine Good.bind Good.int16 fun e4 h4 => ?_
  refine Good.bind Good.int16 fun e5 h5 => ?_
  refine Good.pure ⟨rfl, ?_⟩ ?_
  · intro y hy
    simp only [List.mem_cons, List.not_mem_nil, or_false] at hy
    rcases hy with rfl | rfl | rfl | rfl | rfl | rfl <;> assumption
  · intro b5 k5 b4 k4 b3 k3 b2 k2 b1 k1 b0 k0
    exact joinB_cons_ok k0 (joinB_cons_ok k1 (joinB_cons_ok k2 (joinB_cons_ok k3 (joinB_cons_ok k4 (joinB_cons_ok k5 rfl)))))

theorem RW.int32Array10 {v : Version} {l : List Int} (h : Exactly 10 IsI32 l) :
    RW v readInt32Array10 (writeInt32Array l) l := by
  obtain ⟨h1, h2⟩ := h
  match l, h1 with
  | [e0, e1, e2, e3, e4, e5, e6, e7, e8, e9], _ =>
    refine RW.bind (RW.int32 (h2 e0 (by simp))) ?_
    refine RW.bind (RW.int32 (h2 e1 (by simp))) ?_
    refine RW.bind (RW.int32 (h2 e2 (by simp))) ?_
    refine RW.bind (RW.int32 (h2 e3 (by simp))) ?_
    refine RW.bind (RW.int32 (h2 e4 (by simp))) ?_
    refine RW.bind (RW.int32 (h2 e5 (by simp))) ?_
    refine RW.bind (RW.int32 (h2 e6 (by simp))) ?_
    refine RW.bind (RW.int32 (h2 e7 (by simp))) ?_
    refine RW.bind (RW.int32 (h2 e8 (by simp))) ?_
    refine RW.bind (RW.int32 (h2 e9 (by simp))) ?_
    exact RW.pure rfl

theorem Good.int32Array10 {v : Version} :
    Good v readInt32Array10 (Exactly 10 IsI32) (fun l bs => writeInt32Array l = .ok bs) := by
  unfold readInt32Array10
  refine Good.bind Good.int32 fun e0 h0 => ?_
  refine Good.bind Good.int32 fun e1 h1 => ?_
  refine Good.bind Good.int32 fun e2 h2 => ?_
  refine Good.bind Good.int32 fun e3 h3 => ?_
  refine Good.bind Good.int32 fun e4 h4 => ?_
  refine Good.bind Good.int32 fun e5 h5 => ?_
  refine Good.bind Good.int32 fun e6 h6 => ?_
  refine Good.bind Good.int32 fun e7 h7 => ?_
  refine Good.bind Good.int32 fun e8 h8 => ?_
  refine Good.bind Good.int32 fun e9 h9 => ?_
  refine Good.pure ⟨rfl, ?_⟩ ?_
  · intro y hy
    simp only [List.mem_cons, List.not_mem_nil, or_false] at hy
    rcases hy with rfl | rfl | rfl | rfl | rfl | rfl | rfl | rfl | rfl | rfl <;> assumption
  · intro b9 k9 b8 k8 b7 k7 b6 k6 b5 k5 b4 k4 b3 k3 b2 k2 b1 k1 b0 k0
    exact joinB_cons_ok k0 (joinB_cons_ok k1 (joinB_cons_ok k2 (joinB_cons_ok k3 (joinB_cons_ok k4 (joinB_cons_ok k5 (joinB_cons_ok k6 (joinB_cons_ok k7 (joinB_cons_ok k8 (joinB_cons_ok k9 rfl)))))))))

theorem RW.floatArray2 {v : Version} {l : List PyFloat} (h : Exactly 2 IsF32 l) :
    RW v readFloatArray2 (writeFloatArray l) l := by
  obtain ⟨h1, h2⟩ := h
  match l, h1 with
  | [e0, e1], _ =>
    refine RW.bind (RW.float (h2 e0 (by simp))) ?_
    refine RW.bind (RW.float (h2 e1 (by simp))) ?_
    exact RW.pure rfl

theorem Good.floatArray2 {v : Version} :
    Good v readFloatArray2 (Exactly 2 IsF32) (fun l bs => writeFloatArray l = .ok bs) := by
  unfold readFloatArray2
  refine Good.bind Good.float fun e0 h0 => ?_
  refine Good.bind Good.float fun e1 h1 => ?_
  refine Good.pure ⟨rfl, ?_⟩ ?_
  · intro y hy
    simp only [List.mem_cons, List.not_mem_nil, or_false] at hy
    rcases hy with rfl | rfl <;> assumption
  · intro b1 k1 b0 k0
    exact joinB_cons_ok k0 (joinB_cons_ok k1 rfl)

theorem RW.floatArray3 {v : Version} {l : List PyFloat} (h : Exactly 3 IsF32 l) :
    RW v readFloatArray3 (writeFloatArray l) l := by
  obtain ⟨h1, h2⟩ := h
  match l, h1 with
  | [e0, e1, e2], _ =>
    refine RW.bind (RW.float (h2 e0 (by simp))) ?_
    refine RW.bind (RW.float (h2 e1 (by simp))) ?_
    refine RW.bind (RW.float (h2 e2 (by simp))) ?_
    exact RW.pure rfl

theorem Good.floatArray3 {v : Version} :
    Good v readFloatArray3 (Exactly 3 IsF32) (fun l bs => writeFloatArray l = .ok bs) := by
  unfold readFloatArray3
  refine Good.bind Good.float fun e0 h0 => ?_
  refine Good.bind Good.float fun e1 h1 => ?_
  refine Good.bind Good.float fun e2 h2 => ?_
  refine Good.pure ⟨rfl, ?_⟩ ?_
  · intro y hy
    simp only [List.mem_cons, List.not_mem_nil, or_false] at hy
    rcases hy with rfl | rfl | rfl <;> assumption
  · intro b2 k2 b1 k1 b0 k0
    exact joinB_cons_ok k0 (joinB_cons_ok k1 (joinB_cons_ok k2 rfl))

/-! ## sub-records -/

theorem RW.class_ {v : Version} {r : Reader α} {w : Version → α → Py Bytes} {x : α}
    (h : RW v r (w v x) x) : RW v (readClass r) (writeClass w x v) x := h

theorem Good.class_ {v : Version} {r : Reader α} {w : Version → α → Py Bytes} {Q : α → Prop}
    (h : Good v r Q (fun x bs => w v x = .ok bs)) :
    Good v (readClass r) Q (fun x bs => writeClass w x v = .ok bs) := h

theorem RW.classArray {v : Version} {r : Reader α} {w : Version → α → Py Bytes} {l : List α} {n : Int}
    {b : Bool} (hn : n = l.length) (h : ∀ x ∈ l, RW v r (w v x) x) :
    RW v (readClassArray r n b) (writeClassArray w l v) l := RW.array hn h

theorem Good.classArray {v : Version} {r : Reader α} {w : Version → α → Py Bytes} {Q : α → Prop} (n : Int)
    (h : Good v r Q (fun x bs => w v x = .ok bs)) :
    Good v (readClassArray r n false) (fun l => l.length = n.toNat ∧ AllOf Q l)
      (fun l bs => n = l.length ∧ writeClassArray w l v = .ok bs) := Good.array n h

theorem RW.classArray3 {v : Version} {r : Reader α} {w : Version → α → Py Bytes} {l : List α}
    (hn : l.length = 3) (h : ∀ x ∈ l, RW v r (w v x) x) :
    RW v (readClassArray3 r) (writeClassArray w l v) l := by
  match l, hn with
  | [e0, e1, e2], _ =>
    refine RW.bind (h e0 (by simp)) ?_
    refine RW.bind (h e1 (by simp)) ?_
    refine RW.bind (h e2 (by simp)) ?_
    exact RW.pure rfl

theorem Good.classArray3 {v : Version} {r : Reader α} {w : Version → α → Py Bytes} {Q : α → Prop}
    (h : Good v r Q (fun x bs => w v x = .ok bs)) :
    Good v (readClassArray3 r) (Exactly 3 Q) (fun l bs => writeClassArray w l v = .ok bs) := by
  unfold readClassArray3
  refine Good.bind h fun e0 h0 => ?_
  refine Good.bind h fun e1 h1 => ?_
  refine Good.bind h fun e2 h2 => ?_
  refine Good.pure ⟨rfl, ?_⟩ ?_
  · intro y hy
    simp only [List.mem_cons, List.not_mem_nil, or_false] at hy
    rcases hy with rfl | rfl | rfl <;> assumption
  · intro b2 k2 b1 k1 b0 k0
    exact joinB_cons_ok k0 (joinB_cons_ok k1 (joinB_cons_ok k2 rfl))

theorem RW.classArray4 {v : Version} {r : Reader α} {w : Version → α → Py Bytes} {l : List α}
    (hn : l.length = 4) (h : ∀ x ∈ l, RW v r (w v x) x) :
    RW v (readClassArray4 r) (writeClassArray w l v) l := by
  match l, hn with
  | [e0, e1, e2, e3], _ =>
    refine RW.bind (h e0 (by simp)) ?_
    refine RW.bind (h e1 (by simp)) ?_
    refine RW.bind (h e2 (by simp)) ?_
    refine RW.bind (h e3 (by simp)) ?_
    exact RW.pure rfl

theorem Good.classArray4 {v : Version} {r : Reader α} {w : Version → α → Py Bytes} {Q : α → Prop}
    (h : Good v r Q (fun x bs => w v x = .ok bs)) :
    Good v (readClassArray4 r) (Exactly 4 Q) (fun l bs => writeClassArray w l v = .ok bs) := by
  unfold readClassArray4
  refine Good.bind h fun e0 h0 => ?_
  refine Good.bind h fun e1 h1 => ?_
  refine Good.bind h fun e2 h2 => ?_
  refine Good.bind h fun e3 h3 => ?_
  refine Good.pure ⟨rfl, ?_⟩ ?_
  · intro y hy
    simp only [List.mem_cons, List.not_mem_nil, or_false] at hy
    rcases hy with rfl | rfl | rfl | rfl <;> assumption
  · intro b3 k3 b2 k2 b1 k1 b0 k0
    exact joinB_cons_ok k0 (joinB_cons_ok k1 (joinB_cons_ok k2 (joinB_cons_ok k3 rfl)))

/-! ## optional parts -/

theorem RW.readIf {v : Version} {c c' : Prop} [Decidable c] [Decidable c'] {r : Reader α}
    {w : α → Py Bytes} {o : Option α} (hc : c ↔ c') (h1 : c → ∃ a, o = some a ∧ RW v r (w a) a)
    (h2 : ¬ c → o = none) : RW v (Genie.readIf c r) (writeIf c' w o) o := by
  unfold Genie.readIf writeIf
  by_cases h : c
  · obtain ⟨a, rfl, ha⟩ := h1 h
    rw [if_pos h, if_pos (hc.1 h)]
    exact RW.map ha (Reads.pure rfl)
  · rw [if_neg h, if_neg (fun k => h (hc.2 k)), h2 h]
    exact RW.pure rfl

theorem Good.readIf {v : Version} {c : Prop} [Decidable c] {r : Reader α} {w : α → Py Bytes}
    {Q : α → Prop} (h : Good v r Q (fun x bs => w x = .ok bs)) :
    Good v (Genie.readIf c r) (fun o => (c ↔ o.isSome = true) ∧ IfSome Q o)
      (fun o bs => writeIf c w o = .ok bs) := by
  unfold Genie.readIf writeIf
  by_cases hc : c
  · simp only [if_pos hc]
    refine Good.bind h fun a ha => Good.pure ⟨by simp [hc], ?_⟩ ?_
    · rintro b ⟨⟩; exact ha
    · intro bs hbs; simpa using hbs
  · simp only [if_neg hc]
    exact Good.pure ⟨by simp [hc], by rintro b ⟨⟩⟩ rfl

/-! ## slot arrays -/

/-- `0` for an empty slot, `1` for a used one. -/
def slotPointer : Option α → Int
  | none => 0
  | some _ => 1

/-- The pointer list of a slot array. -/
def slotPointers (l : List (Option α)) : List Int := l.map slotPointer

theorem RW.pointersFrom {v : Version} {r : Reader α} {w : Version → α → Py Bytes} (l : List (Option α))
    (pre : List Int) (h : ∀ o ∈ l, ∀ x, o = some x → RW v r (w v x) x) :
    RW v (readPointersFrom r (pre ++ slotPointers l) pre.length l.length)
      (writeClassArrayOpt w l v) l := by
  induction l generalizing pre with
  | nil => exact RW.pure rfl
  | cons o os ih =>
    have ih' := ih (pre ++ [slotPointer o])
      (fun o' ho' => h o' (List.mem_cons_of_mem _ ho'))
    have e1 : pre ++ [slotPointer o] ++ slotPointers os =
        pre ++ slotPointers (o :: os) := by simp [slotPointers]
    have e2 : (pre ++ [slotPointer o]).length = pre.length + 1 := by simp
    rw [e1, e2] at ih'
    have e3 : (pre ++ slotPointers (o :: os))[pre.length]? =
        some (slotPointer o) := by simp [slotPointers]
    rw [List.length_cons, readPointersFrom, e3]
    cases o with
    | none =>
      refine RW.bind0 (Reads.noteLossy (by simp [slotPointer])) ?_
      refine RW.bind0 (a := none) ?_ (RW.map ih' (Reads.pure rfl))
      rw [Genie.readIf, if_neg (by simp [slotPointer])]; exact Reads.pure rfl
    | some x =>
      refine RW.bind0 (Reads.noteLossy (by simp [slotPointer])) ?_
      refine RW.bind (a := some x) ?_ (RW.map ih' (Reads.pure rfl))
      rw [Genie.readIf, if_pos (by simp [slotPointer])]
      exact RW.map (h _ List.mem_cons_self x rfl) (Reads.pure rfl)

theorem RW.classArrayWithPointers {v : Version} {r : Reader α} {w : Version → α → Py Bytes}
    {l : List (Option α)} {n : Int} (hn : n = l.length) {ps : List Int} (hp : ps = slotPointers l)
    (h : ∀ o ∈ l, ∀ x, o = some x → RW v r (w v x) x) :
    RW v (readClassArrayWithPointers r n ps) (writeClassArrayOpt w l v) l := by
  subst hp; subst hn
  have := RW.pointersFrom (v := v) (r := r) (w := w) l [] h
  simpa [readClassArrayWithPointers] using this

theorem Good.pointersFrom {v : Version} {r : Reader α} {w : Version → α → Py Bytes} {Q : α → Prop}
    (h : Good v r Q (fun x bs => w v x = .ok bs)) (ps : List Int) (pre : List Int) :
    Good v (readPointersFrom r (pre ++ ps) pre.length ps.length)
      (fun l => l.length = ps.length ∧ AllOf (IfSome Q) l)
      (fun l bs => ps = slotPointers l ∧ writeClassArrayOpt w l v = .ok bs) := by
  induction ps generalizing pre with
  | nil => exact Good.pure ⟨rfl, by simp [AllOf]⟩ ⟨rfl, rfl⟩
  | cons p ps ih =>
    have ih' := ih (pre ++ [p])
    have e1 : pre ++ [p] ++ ps = pre ++ (p :: ps) := by simp
    have e2 : (pre ++ [p]).length = pre.length + 1 := by simp
    rw [e1, e2] at ih'
    have e3 : (pre ++ p :: ps)[pre.length]? = some p := by simp
    rw [List.length_cons, readPointersFrom, e3]
    refine Good.bind (P := fun _ bs => bs = [] ∧ (p = 0 ∨ p = 1))
      (Good.noteLossy (fun hl => ⟨rfl, by simp at hl; omega⟩)) fun _ _ => ?_
    refine Good.bind (Good.readIf h) fun o ho => ?_
    refine Good.bind ih' fun l hl => ?_
    refine Good.pure ⟨by simp [hl.1], ?_⟩ ?_
    · intro y hy
      rcases List.mem_cons.1 hy with rfl | hy
      · exact ho.2
      · exact hl.2 y hy
    · rintro bs1 ⟨h1, h1'⟩ bs2 h2 bs3 ⟨rfl, h3⟩
      rw [List.append_nil, List.nil_append]
      cases o with
      | none =>
        have hp : p = 0 := by have := ho.1; simpa using this
        subst hp
        refine ⟨by simp [slotPointers, slotPointer] at h1 ⊢; exact h1, ?_⟩
        simp only [writeIf] at h2
        rw [if_neg (by simp)] at h2
        obtain rfl : [] = bs2 := by simpa using h2
        simpa [writeClassArrayOpt] using h1'
      | some x =>
        have hp : p = 1 := by have := ho.1.2 rfl; omega
        subst hp
        refine ⟨by simp [slotPointers, slotPointer] at h1 ⊢; exact h1, ?_⟩
        simp only [writeIf] at h2
        rw [if_pos (by simp)] at h2
        exact joinB_cons_ok h2 h1'

theorem Good.classArrayWithPointers {v : Version} {r : Reader α} {w : Version → α → Py Bytes}
    {Q : α → Prop} {n : Int} {ps : List Int} (hn : ps.length = n.toNat)
    (h : Good v r Q (fun x bs => w v x = .ok bs)) :
    Good v (readClassArrayWithPointers r n ps)
      (fun l => l.length = ps.length ∧ AllOf (IfSome Q) l)
      (fun l bs => ps = slotPointers l ∧ writeClassArrayOpt w l v = .ok bs) := by
  have := Good.pointersFrom h ps []
  rw [readClassArrayWithPointers, ← hn]
  simpa using this

end Genie
