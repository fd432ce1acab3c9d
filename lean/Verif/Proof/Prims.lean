import Verif.Proof.Framework
import Verif.Spec.Basic
/-! # `RW` and `Good` for the `ByteHandler` primitives -/

namespace Genie

/-! ## consume_range -/

theorem Reads.consumeRange {v : Version} {bs : Bytes} {n : Nat} (hn : bs.length = n) :
    Reads v (Genie.consumeRange n) bs bs := by
  intro h hv hp
  have hl := hp.length_le
  rw [hn, List.length_drop] at hl
  have hs : (h.content.drop h.offset).take n = bs := by
    obtain ⟨t, ht⟩ := hp
    rw [← ht, List.take_append_of_le_length (by omega), List.take_of_length_le (by omega)]
  unfold Genie.consumeRange
  simp only [slice_eq, hs, hn]
  rw [decide_eq_false (by omega)]; simp

theorem Reads.noteLossy {v : Version} {b : Bool} (hb : b = false) :
    Reads v (Genie.noteLossy b) [] () := by
  intro h hv hp; subst hb; show Except.ok _ = _; simp

theorem Reads.liftPy {v : Version} {x : Py α} {a : α} (hx : x = .ok a) :
    Reads v (Genie.liftPy x) [] a := by
  intro h hv hp; subst hx; rfl

/-! ## version comparisons -/

theorem ge_iff (v w : Version) : (v.ge w = true) ↔ w.num ≤ v.num := by
  cases v <;> cases w <;> decide
theorem gt_iff (v w : Version) : (v.gt w = true) ↔ w.num < v.num := by
  cases v <;> cases w <;> decide

/-! ## integers -/

theorem RW.intSigned {v : Version} {i : Int} {n : Nat}
    (h : -(256 : Int) ^ n ≤ 2 * i ∧ 2 * i < (256 : Int) ^ n) :
    RW v (do let c ← Genie.consumeRange n; return Int_from_bytes c true) (Int_to_bytes i n true) i := by
  obtain ⟨bs, h1, h2⟩ := intToBytes_signed_ok h
  refine ⟨bs, h1, ?_⟩
  have := (Reads.consumeRange (v := v) (intToBytes_length h1)).bind
    (f := fun c => (Pure.pure (Int_from_bytes c true) : Reader Int)) (Reads.pure h2)
  simpa using this

theorem RW.intUnsigned {v : Version} {i : Int} {n : Nat} (h : 0 ≤ i ∧ i < (256 : Int) ^ n) :
    RW v (do let c ← Genie.consumeRange n; return Int_from_bytes c false) (Int_to_bytes i n false) i := by
  obtain ⟨bs, h1, h2⟩ := intToBytes_unsigned_ok h
  refine ⟨bs, h1, ?_⟩
  have := (Reads.consumeRange (v := v) (intToBytes_length h1)).bind
    (f := fun c => (Pure.pure (Int_from_bytes c false) : Reader Int)) (Reads.pure h2)
  simpa using this

theorem RW.int8 {v : Version} {i : Int} (h : IsU8 i) : RW v readInt8 (writeInt8 i) i :=
  RW.intUnsigned (by unfold IsU8 at h; omega)
theorem RW.int16 {v : Version} {i : Int} (h : IsI16 i) : RW v (readInt16 true) (writeInt16 i true) i :=
  RW.intSigned (by unfold IsI16 at h; omega)
theorem RW.uint16 {v : Version} {i : Int} (h : IsU16 i) : RW v (readInt16 false) (writeInt16 i false) i :=
  RW.intUnsigned (by unfold IsU16 at h; omega)
theorem RW.int32 {v : Version} {i : Int} (h : IsI32 i) : RW v (readInt32 true) (writeInt32 i true) i :=
  RW.intSigned (by unfold IsI32 at h; omega)
theorem RW.uint32 {v : Version} {i : Int} (h : IsU32 i) : RW v (readInt32 false) (writeInt32 i false) i :=
  RW.intUnsigned (by unfold IsU32 at h; omega)

theorem pow_len {n : Nat} {c : Bytes} (h : c.length ≤ n) : (256 : Int) ^ c.length ≤ (256 : Int) ^ n := by
  have : 256 ^ c.length ≤ 256 ^ n := Nat.pow_le_pow_right (by omega) h
  have h1 : ((256 ^ c.length : Nat) : Int) = (256 : Int) ^ c.length := by simp
  have h2 : ((256 ^ n : Nat) : Int) = (256 : Int) ^ n := by simp
  omega

theorem Good.intSigned {v : Version} {n : Nat} :
    Good v (do let c ← Genie.consumeRange n; return Int_from_bytes c true)
      (fun i => -(256 : Int) ^ n ≤ 2 * i ∧ 2 * i < (256 : Int) ^ n)
      (fun i bs => Int_to_bytes i n true = .ok bs) := by
  refine Good.bind (Good.consumeRange n) fun c hc => Good.pure ?_ ?_
  · have h1 := intFromBytes_range_signed c
    have h2 := pow_len hc
    unfold Int_from_bytes; omega
  · rintro bs ⟨rfl, rfl⟩
    rw [List.append_nil]; exact intToBytes_intFromBytes c true

theorem Good.intUnsigned {v : Version} {n : Nat} :
    Good v (do let c ← Genie.consumeRange n; return Int_from_bytes c false)
      (fun i => 0 ≤ i ∧ i < (256 : Int) ^ n)
      (fun i bs => Int_to_bytes i n false = .ok bs) := by
  refine Good.bind (Good.consumeRange n) fun c hc => Good.pure ?_ ?_
  · have h1 := intFromBytes_range_unsigned c
    have h2 := pow_len hc
    unfold Int_from_bytes; omega
  · rintro bs ⟨rfl, rfl⟩
    rw [List.append_nil]; exact intToBytes_intFromBytes c false

theorem Good.int8 {v : Version} : Good v readInt8 IsU8 (fun i bs => writeInt8 i = .ok bs) :=
  Good.mono Good.intUnsigned (fun i h => by unfold IsU8; omega) (fun _ _ _ h => h)
theorem Good.int16 {v : Version} :
    Good v (readInt16 true) IsI16 (fun i bs => writeInt16 i true = .ok bs) :=
  Good.mono Good.intSigned (fun i h => by unfold IsI16; omega) (fun _ _ _ h => h)
theorem Good.uint16 {v : Version} :
    Good v (readInt16 false) IsU16 (fun i bs => writeInt16 i false = .ok bs) :=
  Good.mono Good.intUnsigned (fun i h => by unfold IsU16; omega) (fun _ _ _ h => h)
theorem Good.int32 {v : Version} :
    Good v (readInt32 true) IsI32 (fun i bs => writeInt32 i true = .ok bs) :=
  Good.mono Good.intSigned (fun i h => by unfold IsI32; omega) (fun _ _ _ h => h)
theorem Good.uint32 {v : Version} :
    Good v (readInt32 false) IsU32 (fun i bs => writeInt32 i false = .ok bs) :=
  Good.mono Good.intUnsigned (fun i h => by unfold IsU32; omega) (fun _ _ _ h => h)

/-! ## floats -/

theorem RW.float {v : Version} {x : PyFloat} (h : IsF32 x) : RW v readFloat (writeFloat x) x := by
  obtain ⟨h1, h2, -⟩ := floatOfBytes_bytesOfFloat h
  refine ⟨bytesOfFloat x, rfl, ?_⟩
  have := (Reads.consumeRange (v := v) (bytesOfFloat_length x)).bind
    (f := fun c => do Genie.noteLossy (F.isSNaN32 (leNat c)); Genie.liftPy (Float_from_bytes c))
    ((Reads.noteLossy h2).bind (Reads.liftPy (a := x) (by
      simp [Float_from_bytes, unpackNativeF, bytesOfFloat_length, h1])))
  rw [List.append_nil] at this; exact this

theorem Good.float {v : Version} : Good v readFloat IsF32 (fun x bs => writeFloat x = .ok bs) := by
  unfold readFloat
  refine Good.bind (Good.consumeRange 4) fun c _ => ?_
  refine Good.bind (P := fun _ bs => bs = [] ∧ F.isSNaN32 (leNat c) = false)
    (Good.noteLossy (fun h => ⟨rfl, h⟩)) fun _ _ => ?_
  refine Good.liftPy ?_ ?_
  · intro e he
    unfold Float_from_bytes unpackNativeF at he
    split at he <;> simp at he
    exact Or.inl he.symm
  · intro a ha
    unfold Float_from_bytes unpackNativeF at ha
    split at ha
    · rename_i hl
      simp at ha; subst ha
      refine ⟨IsF32_floatOfBytes hl, ?_⟩
      rintro bs1 ⟨rfl, hs⟩ bs2 ⟨rfl, h2⟩
      simp [writeFloat, Float_to_bytes, packNativeF, bytesOfFloat_floatOfBytes_clean hl hs]
    · simp at ha

/-! ## strings -/

theorem RW.debugString {v : Version} {s : PyStr} (h : IsDebugStr s) :
    RW v readDebugString (writeDebugString s) s := by
  obtain ⟨hsc, hnul, hlen⟩ := h
  obtain ⟨bs, hbs⟩ := (strEncode_ok_iff s).2 hsc
  have hl := strEncode_length hbs
  have hstrip : rstripNul bs = bs := rstripNul_eq_self.2 (by
    rw [Ne, getLast?_strEncode hbs]; exact hnul)
  unfold writeDebugString readDebugString
  simp only [hbs]
  refine RW.bind (RW.uint16 (by decide)) ?_
  rw [if_neg (by decide)]
  refine RW.bind (RW.uint16 ⟨by omega, by omega⟩) ?_
  refine RW.bind ⟨bs, rfl, Reads.consumeRange (by omega)⟩ ?_
  refine RW.bind0 (Reads.noteLossy (by simp [hstrip])) ?_
  refine ⟨[], rfl, Reads.liftPy ?_⟩
  rw [String_from_bytes, hstrip, strDecode_strEncode hbs]

theorem Good.debugString {v : Version} :
    Good v readDebugString IsDebugStr (fun s bs => writeDebugString s = .ok bs) := by
  unfold readDebugString
  refine Good.bind Good.uint16 fun tmp _ => ?_
  split
  · exact Good.raise (Or.inr (Or.inl rfl))
  · rename_i htmp
    refine Good.bind Good.uint16 fun size hsize => ?_
    refine Good.bind (Good.consumeRange _) fun c hc => ?_
    refine Good.bind (P := fun _ bs => bs = [] ∧ rstripNul c = c)
      (Good.noteLossy (fun h => ⟨rfl, by simpa using h⟩)) fun _ _ => ?_
    refine Good.liftPy (fun e he => Or.inr (Or.inr (strDecode_error he))) ?_
    intro s hs
    have henc := strEncode_strDecode hs
    refine ⟨⟨(strEncode_ok_iff s).1 ⟨_, henc⟩, ?_, ?_⟩, ?_⟩
    · intro h; exact rstripNul_getLast? c ((getLast?_strEncode henc).2 h)
    · rw [← strEncode_length henc]
      have := rstripNul_length_le c
      unfold IsU16 at hsize; omega
    · rintro bs1 ⟨rfl, h1⟩ bs2 ⟨rfl, h2⟩ bs3 h3 bs4 h4
      rw [h1] at henc
      unfold writeDebugString
      rw [henc]
      simp only
      have ht : tmp = 0x0A60 := by simpa using htmp
      subst ht
      have hs' : (c.length : Int) = size := by unfold IsU16 at hsize; omega
      rw [hs']
      exact joinB_cons_ok h4 (joinB_cons_ok h3 (joinB_cons_ok rfl rfl))

/-! ## loops -/

theorem RW.repeatR {v : Version} {r : Reader α} {w : α → Py Bytes} {l : List α} {n : Nat}
    (hn : n = l.length) (h : ∀ x ∈ l, RW v r (w x) x) :
    RW v (Genie.repeatR r n) (joinB (l.map w)) l := by
  subst hn
  induction l with
  | nil => exact RW.pure rfl
  | cons x xs ih =>
    refine RW.bind (h x List.mem_cons_self) ?_
    exact RW.map (ih fun y hy => h y (List.mem_cons_of_mem _ hy)) (Reads.pure rfl)

theorem RW.array {v : Version} {r : Reader α} {w : α → Py Bytes} {l : List α} {n : Int} {b : Bool}
    (hn : n = l.length) (h : ∀ x ∈ l, RW v r (w x) x) :
    RW v (readArray r n b) (joinB (l.map w)) l := by
  unfold readArray
  refine RW.bind0 (Reads.noteLossy ?_) (RW.repeatR (by omega) h)
  simp; omega

/-- Weaker count condition when the count is kept elsewhere. -/
theorem RW.arrayStored {v : Version} {r : Reader α} {w : α → Py Bytes} {l : List α} {n : Int}
    (hn : n.toNat = l.length) (h : ∀ x ∈ l, RW v r (w x) x) :
    RW v (readArray r n true) (joinB (l.map w)) l := by
  unfold readArray
  exact RW.bind0 (Reads.noteLossy rfl) (RW.repeatR hn h)

theorem Good.repeatR {v : Version} {r : Reader α} {w : α → Py Bytes} {Q : α → Prop} (n : Nat)
    (h : Good v r Q (fun x bs => w x = .ok bs)) :
    Good v (Genie.repeatR r n) (fun l => l.length = n ∧ AllOf Q l)
      (fun l bs => joinB (l.map w) = .ok bs) := by
  induction n with
  | zero => exact Good.pure ⟨rfl, by simp [AllOf]⟩ rfl
  | succ n ih =>
    refine Good.bind h fun x hx => ?_
    refine Good.bind ih fun l hl => ?_
    refine Good.pure ⟨by simp [hl.1], ?_⟩ ?_
    · intro y hy
      rcases List.mem_cons.1 hy with rfl | hy
      · exact hx
      · exact hl.2 y hy
    · intro bs1 h1 bs2 h2
      rw [List.append_nil]
      exact joinB_cons_ok h2 h1

theorem Good.array {v : Version} {r : Reader α} {w : α → Py Bytes} {Q : α → Prop} (n : Int)
    (h : Good v r Q (fun x bs => w x = .ok bs)) :
    Good v (readArray r n false) (fun l => l.length = n.toNat ∧ AllOf Q l)
      (fun l bs => n = l.length ∧ joinB (l.map w) = .ok bs) := by
  unfold readArray
  refine Good.bind (P := fun _ bs => bs = [] ∧ 0 ≤ n) (Good.noteLossy (fun h => ⟨rfl, by simpa using h⟩)) fun _ _ => ?_
  refine Good.mono (Good.repeatR n.toNat h) (fun _ h => h) ?_
  rintro l bs hq h1 bs1 ⟨rfl, h2⟩
  exact ⟨by omega, by simpa using h1⟩

theorem Good.arrayStored {v : Version} {r : Reader α} {w : α → Py Bytes} {Q : α → Prop} (n : Int)
    (h : Good v r Q (fun x bs => w x = .ok bs)) :
    Good v (readArray r n true) (fun l => l.length = n.toNat ∧ AllOf Q l)
      (fun l bs => joinB (l.map w) = .ok bs) := by
  unfold readArray
  refine Good.bind (P := fun _ bs => bs = []) (Good.noteLossy (fun h => rfl)) fun _ _ => ?_
  refine Good.mono (Good.repeatR n.toNat h) (fun _ h => h) ?_
  rintro l bs hq h1 bs1 rfl
  simpa using h1

end Genie
