import Verif.Proof.Takes
/-! # Whatever is accepted for the items is read: primitives and containers -/

namespace Genie

/-! ## counts -/

theorem count_takes {v : Version} {w : Nat} {s : Bool} {n : Nat} (hs : s = true → 2 * n < 256 ^ w) (hn : n < 256 ^ w) :
    TakesR v (do let c ← Genie.consumeRange w; return Int_from_bytes c s) [.count w s n] (fun i => i.toNat = n) := by
  refine TakesR.intItem (fun bs hb => ?_) (.inr (by cases s <;> rfl))
  rcases hb with rfl | ho
  · refine ⟨natLE_length _ _, ?_⟩
    unfold intFromBytes
    rw [Item.bytes, leNat_natLE, Nat.mod_eq_of_lt hn, natLE_length]
    rw [if_neg (by rintro ⟨h1, h2⟩; have := hs h1; omega)]
    exact Int.toNat_natCast n
  · match s, n, ho with
    | true, 0, ⟨h1, h2⟩ =>
      refine ⟨h1, ?_⟩
      have hlt := leNat_lt bs
      unfold intFromBytes
      rw [h1] at hlt ⊢
      rw [if_pos ⟨rfl, h2⟩]
      have h3 : ((256 ^ w : Nat) : Int) = (256 : Int) ^ w := by simp
      omega

theorem TakesR.countU8 {v : Version} {l : List α} (h : l.length ≤ 255) : TakesR v readInt8 (Layout.countU8 l) (fun i => i.toNat = l.length) :=
  count_takes (by simp) (by omega)
theorem TakesR.countI16 {v : Version} {l : List α} (h : l.length ≤ 32767) : TakesR v (readInt16 true) (Layout.countI16 l) (fun i => i.toNat = l.length) :=
  count_takes (by omega) (by omega)
theorem TakesR.countI32 {v : Version} {l : List α} (h : l.length ≤ 2147483647) : TakesR v (readInt32 true) (Layout.countI32 l) (fun i => i.toNat = l.length) :=
  count_takes (by omega) (by omega)
theorem TakesR.countU32 {v : Version} {l : List α} (h : l.length ≤ 4294967295) : TakesR v (readInt32 false) (Layout.countU32 l) (fun i => i.toNat = l.length) :=
  count_takes (by simp) (by omega)

/-! ## floats -/

theorem float_accepted {x : PyFloat} (h : IsF32 x) {bs : Bytes} (ha : (Item.float x).Accepts bs) : bs.length = 4 ∧ floatOfBytes bs = x := by
  rcases ha with rfl | ⟨h1, -, h3⟩
  · exact ⟨bytesOfFloat_length x, (floatOfBytes_bytesOfFloat h).1⟩
  · exact ⟨h1, h3.symm⟩

/-- Bytes that must be there are there. -/
theorem Item.TakenFrom.prefix {it : Item} {rest c : Bytes} (h : it.TakenFrom rest c) (hs : it.strict = true) : c <+: rest := by
  rcases h.2 with h | ⟨h, -⟩
  · exact h
  · rw [hs] at h; cases h

theorem Takes.float {v : Version} {x : PyFloat} (h : IsF32 x) : Takes v readFloat (Layout.f32 x) x := by
  intro rest n hb
  obtain ⟨c, hc, rfl⟩ := TakenAs.single hb
  obtain ⟨h1, h2⟩ := float_accepted h hc.1
  have hp := List.prefix_iff_eq_take.1 (hc.prefix rfl)
  unfold readFloat
  rw [h1] at hp ⊢
  refine FetchAt.range ?_
  rw [← hp]
  exact Fetch.bind Fetch.noteLossy fun _ _ => Fetch.liftPy (by simp [Float_from_bytes, unpackNativeF, h1, h2])

/-! ## texts -/

/-- The rest of the data goes on with `c`, or it would if zeros were added. -/
def ZeroNext (rest c : Bytes) : Prop := ∃ k, c <+: rest ++ List.replicate k 0

theorem ZeroNext.take {rest b c : Bytes} (h : ZeroNext rest (b ++ c)) :
    (∃ k, b = rest.take b.length ++ List.replicate k 0) ∧ ZeroNext (rest.drop b.length) c := by
  obtain ⟨k, hk⟩ := h
  have hb : b <+: rest ++ List.replicate k 0 := (List.prefix_append b c).trans hk
  have e := List.prefix_iff_eq_take.1 hb
  rw [List.take_append, List.take_replicate] at e
  refine ⟨⟨_, e⟩, ?_⟩
  obtain ⟨t, ht⟩ := hk
  have : c ++ t = (rest ++ List.replicate k 0).drop b.length := by rw [← ht, List.append_assoc, List.drop_left' rfl]
  rw [List.drop_append, List.drop_replicate] at this
  exact ⟨_, t, this⟩

theorem Item.TakenFrom.zeroNext {it : Item} {rest c : Bytes} (h : it.TakenFrom rest c) (hs : it.signed = false) : ZeroNext rest c := by
  rcases h.2 with h | ⟨-, k, -, rfl⟩
  · exact ⟨0, by simpa using h⟩
  · refine ⟨k, ?_⟩
    have : fillByte it.signed rest = 0 := by
      rw [hs]
      rcases fillByte_cases false rest with ⟨h, -⟩ | ⟨-, h⟩
      · cases h
      · exact h
    rw [this]
    exact List.prefix_refl _

theorem FetchAt.zeroU16 {v : Version} {n : Nat} (hn : n < 65536) {rest : Bytes} {k : Nat} (h : natLE 2 n = rest.take 2 ++ List.replicate k 0) :
    FetchAt v (readInt16 false) rest 2 (fun i => i = (n : Int)) := by
  refine FetchAt.range (Fetch.pure ?_)
  unfold Int_from_bytes intFromBytes
  rw [if_neg (by simp), ← leNat_append_zeros (rest.take 2) k, ← h, leNat_natLE, Nat.mod_eq_of_lt (by omega)]

theorem Takes.debugString {v : Version} {s : PyStr} (h : IsDebugStr s) : Takes v readDebugString (Layout.text s) s := by
  intro rest n hb
  obtain ⟨c, hc, rfl⟩ := TakenAs.single hb
  obtain ⟨hsc, hnul, hlen⟩ := h
  obtain ⟨us, hus⟩ := (strEncode_ok_iff s).2 hsc
  have hl := strEncode_length hus
  have hu : us = Item.utf8 s := (utf8_of_decode (strDecode_strEncode hus)).1
  have hstrip : ∀ k, rstripNul (us ++ List.replicate k 0) = us := by
    intro k
    rw [rstripNul_append_replicate, rstripNul_eq_self.2 (by rw [Ne, getLast?_strEncode hus]; exact hnul)]
  obtain ⟨k, hk, rfl⟩ : ∃ k, utf8Len s + k ≤ 65535 ∧
      c = natLE 2 0x0A60 ++ (natLE 2 (utf8Len s + k) ++ (us ++ List.replicate k 0)) := by
    rcases hc.1 with rfl | ⟨k, -, h2, h3⟩
    · exact ⟨0, by omega, by simp [Item.bytes, hu]⟩
    · exact ⟨k, h2, by rw [h3, hu]; simp⟩
  have hz := hc.zeroNext rfl
  obtain ⟨⟨k1, z1⟩, hz⟩ := hz.take
  obtain ⟨⟨k2, z2⟩, hz⟩ := hz.take
  obtain ⟨⟨k3, z3⟩, -⟩ := ZeroNext.take (b := us ++ List.replicate k 0) (c := []) (by simpa using hz)
  simp only [natLE_length, List.drop_drop] at z1 z2 z3
  unfold readDebugString
  rw [List.length_append, List.length_append, natLE_length, natLE_length]
  refine (FetchAt.zeroU16 (by omega) z1).bind ?_
  rintro _ rfl
  rw [if_neg (by decide)]
  refine (FetchAt.zeroU16 (by omega) z2).bind ?_
  rintro _ rfl
  have hlen' : (us ++ List.replicate k 0).length = ((utf8Len s + k : Nat) : Int).toNat := by
    rw [List.length_append, List.length_replicate, Int.toNat_natCast]; omega
  rw [hlen'] at z3 ⊢
  refine FetchAt.range ?_
  refine Fetch.bind Fetch.noteLossy fun _ _ => Fetch.liftPy ?_
  rw [String_from_bytes, ← rstripNul_append_replicate _ k3, List.drop_drop, ← z3, hstrip, strDecode_strEncode hus]

/-! ## loops -/

theorem Takes.repeatR {v : Version} {r : Reader α} {f : α → List Item} {l : List α} {n : Nat} (hn : n = l.length)
    (h : ∀ x ∈ l, Takes v r (f x) x) : Takes v (Genie.repeatR r n) (Layout.each f l) l := by
  subst hn
  induction l with
  | nil => exact Takes.pure rfl
  | cons x xs ih =>
    have : Layout.each f (x :: xs) = List.flatten [f x, Layout.each f xs] := by simp [Layout.each]
    rw [this]
    refine Takes.bind (h x List.mem_cons_self) ?_
    exact TakesR.last (Takes.map (ih fun y hy => h y (List.mem_cons_of_mem _ hy)) (Fetch.pure rfl))

theorem Takes.array {v : Version} {r : Reader α} {f : α → List Item} {l : List α} {n : Int} {b : Bool} (hn : n.toNat = l.length)
    (h : ∀ x ∈ l, Takes v r (f x) x) : Takes v (readArray r n b) (Layout.each f l) l := by
  unfold readArray
  exact Takes.noteLossy (Takes.repeatR hn h)

theorem Takes.int8Array {v : Version} {l : List Int} {n : Int} (hn : n.toNat = l.length) (h : AllOf IsU8 l) :
    Takes v (readInt8Array n) (Layout.each Layout.u8 l) l := Takes.array hn fun x hx => Takes.int8 (h x hx)
theorem Takes.int16Array {v : Version} {l : List Int} {n : Int} (hn : n.toNat = l.length) (h : AllOf IsI16 l) :
    Takes v (readInt16Array n) (Layout.each Layout.i16 l) l := Takes.array hn fun x hx => Takes.int16 (h x hx)
theorem Takes.int32Array {v : Version} {l : List Int} {n : Int} (hn : n.toNat = l.length) (h : AllOf IsI32 l) :
    Takes v (readInt32Array n) (Layout.each Layout.i32 l) l := Takes.array hn fun x hx => Takes.int32 (h x hx)
theorem Takes.floatArray {v : Version} {l : List PyFloat} {n : Int} (hn : n.toNat = l.length) (h : AllOf IsF32 l) :
    Takes v (readFloatArray n) (Layout.each Layout.f32 l) l := Takes.array hn fun x hx => Takes.float (h x hx)

theorem Takes.class_ {v : Version} {r : Reader α} {its : List Item} {x : α} (h : Takes v r its x) : Takes v (readClass r) its x := h

theorem Takes.classArray {v : Version} {r : Reader α} {f : α → List Item} {l : List α} {n : Int} {b : Bool} (hn : n.toNat = l.length)
    (h : ∀ x ∈ l, Takes v r (f x) x) : Takes v (readClassArray r n b) (Layout.each f l) l := Takes.array hn h

/-! ## a fixed number of elements -/

theorem Takes.int8Array2 {v : Version} {l : List Int} (h : Exactly 2 IsU8 l) : Takes v readInt8Array2 (Layout.each Layout.u8 l) l := by
  match l, h.1 with
  | [e0, e1], _ =>
    rw [show Layout.each Layout.u8 [e0, e1] = List.flatten [Layout.u8 e0, Layout.u8 e1] from rfl]
    refine Takes.bind (Takes.int8 (h.2 e0 (by simp))) ?_
    refine Takes.bind (Takes.int8 (h.2 e1 (by simp))) ?_
    exact Takes.pure rfl

theorem Takes.int8Array3 {v : Version} {l : List Int} (h : Exactly 3 IsU8 l) : Takes v readInt8Array3 (Layout.each Layout.u8 l) l := by
  match l, h.1 with
  | [e0, e1, e2], _ =>
    rw [show Layout.each Layout.u8 [e0, e1, e2] = List.flatten [Layout.u8 e0, Layout.u8 e1, Layout.u8 e2] from rfl]
    refine Takes.bind (Takes.int8 (h.2 e0 (by simp))) ?_
    refine Takes.bind (Takes.int8 (h.2 e1 (by simp))) ?_
    refine Takes.bind (Takes.int8 (h.2 e2 (by simp))) ?_
    exact Takes.pure rfl

theorem Takes.int8Array5 {v : Version} {l : List Int} (h : Exactly 5 IsU8 l) : Takes v readInt8Array5 (Layout.each Layout.u8 l) l := by
  match l, h.1 with
  | [e0, e1, e2, e3, e4], _ =>
    rw [show Layout.each Layout.u8 [e0, e1, e2, e3, e4] = List.flatten [Layout.u8 e0, Layout.u8 e1, Layout.u8 e2, Layout.u8 e3, Layout.u8 e4] from rfl]
    refine Takes.bind (Takes.int8 (h.2 e0 (by simp))) ?_
    refine Takes.bind (Takes.int8 (h.2 e1 (by simp))) ?_
    refine Takes.bind (Takes.int8 (h.2 e2 (by simp))) ?_
    refine Takes.bind (Takes.int8 (h.2 e3 (by simp))) ?_
    refine Takes.bind (Takes.int8 (h.2 e4 (by simp))) ?_
    exact Takes.pure rfl

theorem Takes.int8Array6 {v : Version} {l : List Int} (h : Exactly 6 IsU8 l) : Takes v readInt8Array6 (Layout.each Layout.u8 l) l := by
  match l, h.1 with
  | [e0, e1, e2, e3, e4, e5], _ =>
    rw [show Layout.each Layout.u8 [e0, e1, e2, e3, e4, e5] = List.flatten [Layout.u8 e0, Layout.u8 e1, Layout.u8 e2, Layout.u8 e3, Layout.u8 e4, Layout.u8 e5] from rfl]
    refine Takes.bind (Takes.int8 (h.2 e0 (by simp))) ?_
    refine Takes.bind (Takes.int8 (h.2 e1 (by simp))) ?_
    refine Takes.bind (Takes.int8 (h.2 e2 (by simp))) ?_
    refine Takes.bind (Takes.int8 (h.2 e3 (by simp))) ?_
    refine Takes.bind (Takes.int8 (h.2 e4 (by simp))) ?_
    refine Takes.bind (Takes.int8 (h.2 e5 (by simp))) ?_
    exact Takes.pure rfl

theorem Takes.int8Array10 {v : Version} {l : List Int} (h : Exactly 10 IsU8 l) : Takes v readInt8Array10 (Layout.each Layout.u8 l) l := by
  match l, h.1 with
  | [e0, e1, e2, e3, e4, e5, e6, e7, e8, e9], _ =>
    rw [show Layout.each Layout.u8 [e0, e1, e2, e3, e4, e5, e6, e7, e8, e9] = List.flatten [Layout.u8 e0, Layout.u8 e1, Layout.u8 e2, Layout.u8 e3, Layout.u8 e4, Layout.u8 e5, Layout.u8 e6, Layout.u8 e7, Layout.u8 e8, Layout.u8 e9] from rfl]
    refine Takes.bind (Takes.int8 (h.2 e0 (by simp))) ?_
    refine Takes.bind (Takes.int8 (h.2 e1 (by simp))) ?_
    refine Takes.bind (Takes.int8 (h.2 e2 (by simp))) ?_
    refine Takes.bind (Takes.int8 (h.2 e3 (by simp))) ?_
    refine Takes.bind (Takes.int8 (h.2 e4 (by simp))) ?_
    refine Takes.bind (Takes.int8 (h.2 e5 (by simp))) ?_
    refine Takes.bind (Takes.int8 (h.2 e6 (by simp))) ?_
    refine Takes.bind (Takes.int8 (h.2 e7 (by simp))) ?_
    refine Takes.bind (Takes.int8 (h.2 e8 (by simp))) ?_
    refine Takes.bind (Takes.int8 (h.2 e9 (by simp))) ?_
    exact Takes.pure rfl

theorem Takes.int16Array2 {v : Version} {l : List Int} (h : Exactly 2 IsI16 l) : Takes v readInt16Array2 (Layout.each Layout.i16 l) l := by
  match l, h.1 with
  | [e0, e1], _ =>
    rw [show Layout.each Layout.i16 [e0, e1] = List.flatten [Layout.i16 e0, Layout.i16 e1] from rfl]
    refine Takes.bind (Takes.int16 (h.2 e0 (by simp))) ?_
    refine Takes.bind (Takes.int16 (h.2 e1 (by simp))) ?_
    exact Takes.pure rfl

theorem Takes.int16Array3 {v : Version} {l : List Int} (h : Exactly 3 IsI16 l) : Takes v readInt16Array3 (Layout.each Layout.i16 l) l := by
  match l, h.1 with
  | [e0, e1, e2], _ =>
    rw [show Layout.each Layout.i16 [e0, e1, e2] = List.flatten [Layout.i16 e0, Layout.i16 e1, Layout.i16 e2] from rfl]
    refine Takes.bind (Takes.int16 (h.2 e0 (by simp))) ?_
    refine Takes.bind (Takes.int16 (h.2 e1 (by simp))) ?_
    refine Takes.bind (Takes.int16 (h.2 e2 (by simp))) ?_
    exact Takes.pure rfl

theorem Takes.int16Array4 {v : Version} {l : List Int} (h : Exactly 4 IsI16 l) : Takes v readInt16Array4 (Layout.each Layout.i16 l) l := by
  match l, h.1 with
  | [e0, e1, e2, e3], _ =>
    rw [show Layout.each Layout.i16 [e0, e1, e2, e3] = List.flatten [Layout.i16 e0, Layout.i16 e1, Layout.i16 e2, Layout.i16 e3] from rfl]
    refine Takes.bind (Takes.int16 (h.2 e0 (by simp))) ?_
    refine Takes.bind (Takes.int16 (h.2 e1 (by simp))) ?_
    refine Takes.bind (Takes.int16 (h.2 e2 (by simp))) ?_
    refine Takes.bind (Takes.int16 (h.2 e3 (by simp))) ?_
    exact Takes.pure rfl

theorem Takes.int16Array6 {v : Version} {l : List Int} (h : Exactly 6 IsI16 l) : Takes v readInt16Array6 (Layout.each Layout.i16 l) l := by
  match l, h.1 with
  | [e0, e1, e2, e3, e4, e5], _ =>
    rw [show Layout.each Layout.i16 [e0, e1, e2, e3, e4, e5] = List.flatten [Layout.i16 e0, Layout.i16 e1, Layout.i16 e2, Layout.i16 e3, Layout.i16 e4, Layout.i16 e5] from rfl]
    refine Takes.bind (Takes.int16 (h.2 e0 (by simp))) ?_
    refine Takes.bind (Takes.int16 (h.2 e1 (by simp))) ?_
    refine Takes.bind (Takes.int16 (h.2 e2 (by simp))) ?_
    refine Takes.bind (Takes.int16 (h.2 e3 (by simp))) ?_
    refine Takes.bind (Takes.int16 (h.2 e4 (by simp))) ?_
    refine Takes.bind (Takes.int16 (h.2 e5 (by simp))) ?_
    exact Takes.pure rfl

theorem Takes.int32Array10 {v : Version} {l : List Int} (h : Exactly 10 IsI32 l) : Takes v readInt32Array10 (Layout.each Layout.i32 l) l := by
  match l, h.1 with
  | [e0, e1, e2, e3, e4, e5, e6, e7, e8, e9], _ =>
    rw [show Layout.each Layout.i32 [e0, e1, e2, e3, e4, e5, e6, e7, e8, e9] = List.flatten [Layout.i32 e0, Layout.i32 e1, Layout.i32 e2, Layout.i32 e3, Layout.i32 e4, Layout.i32 e5, Layout.i32 e6, Layout.i32 e7, Layout.i32 e8, Layout.i32 e9] from rfl]
    refine Takes.bind (Takes.int32 (h.2 e0 (by simp))) ?_
    refine Takes.bind (Takes.int32 (h.2 e1 (by simp))) ?_
    refine Takes.bind (Takes.int32 (h.2 e2 (by simp))) ?_
    refine Takes.bind (Takes.int32 (h.2 e3 (by simp))) ?_
    refine Takes.bind (Takes.int32 (h.2 e4 (by simp))) ?_
    refine Takes.bind (Takes.int32 (h.2 e5 (by simp))) ?_
    refine Takes.bind (Takes.int32 (h.2 e6 (by simp))) ?_
    refine Takes.bind (Takes.int32 (h.2 e7 (by simp))) ?_
    refine Takes.bind (Takes.int32 (h.2 e8 (by simp))) ?_
    refine Takes.bind (Takes.int32 (h.2 e9 (by simp))) ?_
    exact Takes.pure rfl

theorem Takes.floatArray3 {v : Version} {l : List PyFloat} (h : Exactly 3 IsF32 l) : Takes v readFloatArray3 (Layout.each Layout.f32 l) l := by
  match l, h.1 with
  | [e0, e1, e2], _ =>
    rw [show Layout.each Layout.f32 [e0, e1, e2] = List.flatten [Layout.f32 e0, Layout.f32 e1, Layout.f32 e2] from rfl]
    refine Takes.bind (Takes.float (h.2 e0 (by simp))) ?_
    refine Takes.bind (Takes.float (h.2 e1 (by simp))) ?_
    refine Takes.bind (Takes.float (h.2 e2 (by simp))) ?_
    exact Takes.pure rfl

theorem Takes.classArray3 {v : Version} {r : Reader α} {f : α → List Item} {l : List α} (hn : l.length = 3)
    (h : ∀ x ∈ l, Takes v r (f x) x) : Takes v (readClassArray3 r) (Layout.each f l) l := by
  match l, hn with
  | [e0, e1, e2], _ =>
    rw [show Layout.each f [e0, e1, e2] = List.flatten [f e0, f e1, f e2] by simp [Layout.each]]
    refine Takes.bind (h e0 (by simp)) ?_
    refine Takes.bind (h e1 (by simp)) ?_
    refine Takes.bind (h e2 (by simp)) ?_
    exact Takes.pure rfl

theorem Takes.classArray4 {v : Version} {r : Reader α} {f : α → List Item} {l : List α} (hn : l.length = 4)
    (h : ∀ x ∈ l, Takes v r (f x) x) : Takes v (readClassArray4 r) (Layout.each f l) l := by
  match l, hn with
  | [e0, e1, e2, e3], _ =>
    rw [show Layout.each f [e0, e1, e2, e3] = List.flatten [f e0, f e1, f e2, f e3] by simp [Layout.each]]
    refine Takes.bind (h e0 (by simp)) ?_
    refine Takes.bind (h e1 (by simp)) ?_
    refine Takes.bind (h e2 (by simp)) ?_
    refine Takes.bind (h e3 (by simp)) ?_
    exact Takes.pure rfl

/-! ## optional parts -/

theorem Takes.readIf {v : Version} {c c' : Prop} [Decidable c] [Decidable c'] {r : Reader α} {f : α → List Item} {o : Option α}
    (hc : c ↔ c') (h1 : c → ∃ a, o = some a ∧ Takes v r (f a) a) (h2 : ¬ c → o = none) :
    Takes v (Genie.readIf c r) (Layout.part c' f o) o := by
  unfold Genie.readIf Layout.part
  by_cases h : c
  · obtain ⟨a, rfl, ha⟩ := h1 h
    rw [if_pos h, if_pos (hc.1 h)]
    exact Takes.map ha (Fetch.pure rfl)
  · rw [if_neg h, if_neg (fun k => h (hc.2 k)), h2 h]
    exact Takes.pure rfl

/-! ## slot arrays -/

/-- The pointers say which slots are filled. -/
def PointersOf (l : List (Option α)) (ps : List Int) : Prop := l.map Option.isSome = ps.map fun p => decide (p ≠ 0)

theorem slot_taken {v : Version} {b : Bool} : TakesR v (readInt32 true) [.slot b] (fun p => b = decide (p ≠ 0)) := by
  refine TakesR.intItem (fun bs hb => ?_) (.inr rfl)
  rcases hb with rfl | ho
  · refine ⟨natLE_length _ _, ?_⟩
    cases b <;> decide
  · match b, ho with
    | true, ⟨h1, h2, h3⟩ =>
      refine ⟨h1, ?_⟩
      have hlt := leNat_lt bs
      have hz : intFromBytes bs true ≠ 0 := by
        unfold intFromBytes
        rw [h1] at hlt ⊢
        split
        · have : ((256 ^ 4 : Nat) : Int) = (256 : Int) ^ 4 := by simp
          omega
        · omega
      simp [hz]

theorem TakesR.pointers {v : Version} {l : List (Option α)} {n : Int} (hn : n.toNat = l.length) :
    TakesR v (readInt32Array n) (Layout.pointers l) (PointersOf l) := by
  unfold readInt32Array readArray
  refine Takes.noteLossy ?_
  rw [hn]
  clear hn
  induction l with
  | nil => exact Takes.pure rfl
  | cons o os ih =>
    rw [show Layout.pointers (o :: os) = List.flatten [[.slot o.isSome], Layout.pointers os] by simp [Layout.pointers]]
    refine TakesR.bind slot_taken fun p hp => ?_
    refine TakesR.last (TakesR.map ih fun ps hps => Fetch.pure ?_)
    unfold PointersOf at hps ⊢
    rw [List.map_cons, List.map_cons, hps, hp]

theorem Takes.pointersFrom {v : Version} {r : Reader α} {f : α → List Item} (l : List (Option α)) (ps pre : List Int)
    (hp : PointersOf l ps) (h : ∀ o ∈ l, ∀ x, o = some x → Takes v r (f x) x) :
    Takes v (readPointersFrom r (pre ++ ps) pre.length l.length) (Layout.eachPresent f l) l := by
  induction l generalizing pre ps with
  | nil => exact Takes.pure rfl
  | cons o os ih =>
    match ps, hp with
    | p :: ps, hp =>
    unfold PointersOf at hp
    simp only [List.map_cons, List.cons.injEq] at hp
    have ih' := ih ps (pre ++ [p]) hp.2 (fun o' ho' => h o' (List.mem_cons_of_mem _ ho'))
    have e1 : pre ++ [p] ++ ps = pre ++ (p :: ps) := by simp
    have e2 : (pre ++ [p]).length = pre.length + 1 := by simp
    rw [e1, e2] at ih'
    have e3 : (pre ++ p :: ps)[pre.length]? = some p := by simp
    rw [List.length_cons, readPointersFrom, e3]
    refine Takes.noteLossy ?_
    cases o with
    | none =>
      have hz : ¬ p ≠ 0 := by simpa using hp.1.symm
      rw [show Layout.eachPresent f (none :: os) = List.flatten [[], Layout.eachPresent f os] by simp [Layout.eachPresent]]
      refine Takes.bind (x := none) ?_ (TakesR.last (Takes.map ih' (Fetch.pure rfl)))
      rw [Genie.readIf, if_neg hz]; exact Takes.pure rfl
    | some x =>
      have hz : p ≠ 0 := by simpa using hp.1.symm
      rw [show Layout.eachPresent f (some x :: os) = List.flatten [f x, Layout.eachPresent f os] by simp [Layout.eachPresent, Layout.each]]
      refine Takes.bind (x := some x) ?_ (TakesR.last (Takes.map ih' (Fetch.pure rfl)))
      rw [Genie.readIf, if_pos hz]
      exact Takes.map (h _ List.mem_cons_self x rfl) (Fetch.pure rfl)

theorem Takes.classArrayWithPointers {v : Version} {r : Reader α} {f : α → List Item} {l : List (Option α)} {n : Int} (hn : n.toNat = l.length)
    {ps : List Int} (hp : PointersOf l ps) (h : ∀ o ∈ l, ∀ x, o = some x → Takes v r (f x) x) :
    Takes v (readClassArrayWithPointers r n ps) (Layout.eachPresent f l) l := by
  have := Takes.pointersFrom (v := v) (r := r) (f := f) l ps [] hp h
  rw [readClassArrayWithPointers, hn]
  simpa using this

/-! ## struct-packed blocks -/

theorem packed_accepted {c : Code} {x : Val} (hf : Fits c x) {bs : Bytes} (h : (Item.packed c x).Accepts bs) :
    bs.length = c.size ∧ unpackCode c bs = x := by
  cases c with
  | f =>
    cases x with
    | float x =>
      obtain ⟨h1, h2⟩ := float_accepted (x := x) hf (by rcases h with h | h; exact .inl h; exact .inr h)
      exact ⟨h1, by rw [unpackCode, h2]⟩
    | int i => exact hf.elim
  | _ =>
    cases x with
    | float x => exact hf.elim
    | int i =>
      rcases h with rfl | h
      · obtain ⟨b, e1, e2, e3, -⟩ := packCode_of_fits hf
        suffices ∀ q, q = b → q.length = _ ∧ unpackCode _ q = Val.int i by
          refine this _ ?_
          simp only [packCode] at e1
          rw [intToBytes_eq] at e1
          split at e1
          · rename_i q
            split at q
            · cases e1; cases q; rfl
            · cases q
          · cases e1
        rintro _ rfl
        exact ⟨e2, e3⟩
      · exact h.elim

theorem packed_taken {cs : List Code} {vs : List Val} (h : Matches cs vs) {bs : Bytes} (hb : ReadAs (List.zipWith Item.packed cs vs) bs) :
    bs.length = codesSize cs ∧ unpackCodes cs bs = vs := by
  induction cs generalizing vs bs with
  | nil =>
    cases vs with
    | nil => rw [readAs_nil hb]; exact ⟨rfl, rfl⟩
    | cons _ _ => exact h.elim
  | cons c cs ih =>
    cases vs with
    | nil => exact h.elim
    | cons x xs =>
      obtain ⟨h1, h2⟩ := h
      obtain ⟨b1, b2, r1, r2, rfl⟩ := ReadAs.split (a := [_]) hb
      obtain ⟨p1, p2⟩ := packed_accepted h1 r1.single
      obtain ⟨q1, q2⟩ := ih h2 r2
      refine ⟨by simp [codesSize, p1, q1], ?_⟩
      simp only [unpackCodes, ← p1, List.take_left, List.drop_left, p2, q2]

theorem Takes.unpack {v : Version} {fmt fmt' : String} {n : Nat} {cs : List Code} {vs : List Val}
    (hf : parseFmt fmt = some cs) (hn : codesSize cs = n) (h : Matches cs vs) (hc : Layout.codes fmt' = cs) :
    Takes v (unpackFrom fmt n) (Layout.block fmt' vs) vs := by
  intro rest m hb
  unfold Layout.block at hb
  rw [hc, if_pos (packCodes_of_matches h).1] at hb
  obtain ⟨n1, n2, r1, r2, rfl⟩ := hb.split
  rw [taken_requires r1, List.drop_zero] at r2
  rw [taken_requires r1, Nat.zero_add]
  have hle : n2 ≤ rest.length := by
    rcases Nat.eq_zero_or_pos n2 with h0 | h0
    · omega
    · exact r2.strict (zipWith_packed_strict _ _) h0
  obtain ⟨h1, h2⟩ := packed_taken h (r2.readAs hle)
  rw [List.length_take, Nat.min_eq_left hle, hn] at h1
  subst h1
  unfold unpackFrom
  refine FetchAt.range ?_
  exact Fetch.bind Fetch.noteLossy fun _ _ => Fetch.liftPy (by simp [structUnpack, hf, hn, h2, Nat.min_eq_left hle])

end Genie
