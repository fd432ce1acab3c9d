import Verif.Spec.Pieces
import Verif.Spec.Api
import Verif.Proof.Containers
import Verif.Proof.Writes
/-! # Reading arbitrary bytes, item by item -/

namespace Genie

/-! ## `ReadAs` -/

theorem Pieces.append : {a b : List Item} → {cs ds : List Bytes} → Pieces a cs → Pieces b ds → Pieces (a ++ b) (cs ++ ds)
  | [], _, [], _, _, h2 => h2
  | _ :: _, _, _ :: _, _, h1, h2 => ⟨h1.1, Pieces.append h1.2 h2⟩
  | [], _, _ :: _, _, h1, _ => h1.elim
  | _ :: _, _, [], _, h1, _ => h1.elim

theorem ReadAs.nil : ReadAs [] [] := ⟨[], trivial, rfl⟩

theorem ReadAs.append {a b : List Item} {bs cs : Bytes} (h1 : ReadAs a bs) (h2 : ReadAs b cs) : ReadAs (a ++ b) (bs ++ cs) := by
  obtain ⟨x, p1, rfl⟩ := h1
  obtain ⟨y, p2, rfl⟩ := h2
  exact ⟨x ++ y, p1.append p2, List.flatten_append⟩

theorem ReadAs.cons {a : List Item} {l : List (List Item)} {bs cs : Bytes} (h1 : ReadAs a bs) (h2 : ReadAs l.flatten cs) :
    ReadAs (List.flatten (a :: l)) (bs ++ cs) := h1.append h2

theorem ReadAs.item {i : Item} {bs : Bytes} (h : i.Accepts bs) : ReadAs [i] bs := ⟨[bs], ⟨h, trivial⟩, by simp⟩

theorem ReadAs.requires {c : Prop} [Decidable c] {e : PyErr} : ReadAs (Layout.requires c e) [] := ReadAs.item (.inl rfl)

theorem ReadAs.requiresCons {c : Prop} [Decidable c] {e : PyErr} {l : List (List Item)} {bs : Bytes} (h : ReadAs l.flatten bs) :
    ReadAs (List.flatten (Layout.requires c e :: l)) bs := ReadAs.cons (bs := []) ReadAs.requires h

theorem ReadAs.last {a : List Item} {bs : Bytes} (h : ReadAs a bs) : ReadAs (List.flatten [a]) bs := by
  simpa using h

/-! ## the predicate -/

/-! ## integers -/

/-- The integer that these `w` bytes encode. -/
def IntRead (w : Nat) (s : Bool) (i : Int) (bs : Bytes) : Prop := bs.length = w ∧ i = intFromBytes bs s

theorem IntRead.bytes {w : Nat} {s : Bool} {i : Int} {bs : Bytes} (h : IntRead w s i bs) :
    bs = natLE w (i % (256 : Int) ^ w).toNat := by
  obtain ⟨rfl, rfl⟩ := h
  have := intToBytes_intFromBytes bs s
  rw [intToBytes_eq] at this
  split at this
  · exact (Except.ok.inj this).symm
  · cases this

theorem IntRead.int {w : Nat} {s : Bool} {i : Int} {bs : Bytes} (h : IntRead w s i bs) : ReadAs [.int w s i] bs :=
  ReadAs.item (.inl h.bytes)

theorem IntRead.count {w : Nat} {s : Bool} {i : Int} {bs : Bytes} (h : IntRead w s i bs) {n : Nat} (hn : n = i.toNat) :
    ReadAs [.count w s n] bs := by
  subst hn
  refine ReadAs.item ?_
  have hlt := leNat_lt bs
  obtain ⟨rfl, rfl⟩ := h
  unfold intFromBytes
  split
  · rename_i hc
    have e : ((leNat bs : Int) - (256 : Int) ^ bs.length).toNat = 0 := by
      have h2 : ((256 ^ bs.length : Nat) : Int) = (256 : Int) ^ bs.length := by simp
      omega
    rw [e]
    exact .inr (by rw [hc.1]; exact ⟨rfl, hc.2⟩)
  · rw [Int.toNat_natCast]
    exact .inl (natLE_leNat bs).symm

/-! ## floats -/

theorem snan32_iff (w : Nat) : F.isSNaN32 w = true ↔ SignallingNaN32 w := by
  simp only [F.isSNaN32, F.exp32, F.man32, Bool.and_eq_true, beq_iff_eq, bne_iff_ne, SignallingNaN32, and_assoc]
  exact and_congr Iff.rfl (and_congr Iff.rfl decide_eq_true_iff)

theorem floatOfBytes_accepts {bs : Bytes} (h : bs.length = 4) : (Item.float (floatOfBytes bs)).Accepts bs := by
  by_cases hs : F.isSNaN32 (leNat bs) = true
  · exact .inr ⟨h, (snan32_iff _).1 hs, rfl⟩
  · exact .inl (bytesOfFloat_floatOfBytes_clean h (by simpa using hs)).symm

/-! ## texts -/

theorem utf8_of_decode {bs : Bytes} {s : PyStr} (h : strDecode bs = .ok s) : bs = Item.utf8 s ∧ bs.length = utf8Len s := by
  have := strEncode_strDecode h
  rw [strEncode_eq] at this
  split at this
  · have e := Except.ok.inj this; exact ⟨e.symm, by rw [← e, utf8_length]⟩
  · cases this

/-! ## loops -/

/-! ## a fixed number of elements -/

theorem ReadAs.eachCons {f : α → List Item} {x : α} {l : List α} {bs cs : Bytes} (h1 : ReadAs (f x) bs) (h2 : ReadAs (Layout.each f l) cs) :
    ReadAs (Layout.each f (x :: l)) (bs ++ cs) := h1.append h2

theorem ReadAs.eachNil {f : α → List Item} : ReadAs (Layout.each f []) [] := ReadAs.nil

/-! ## optional parts -/

theorem ReadAs.partIff {c c' : Prop} [Decidable c] [Decidable c'] {f : α → List Item} {o : Option α} {bs : Bytes}
    (h : ReadAs (Layout.part c f o) bs) (hc : c ↔ c') : ReadAs (Layout.part c' f o) bs := by
  have : Layout.part c' f o = Layout.part c f o := by
    unfold Layout.part
    by_cases h : c
    · rw [if_pos h, if_pos (hc.1 h)]
    · rw [if_neg h, if_neg (fun k => h (hc.2 k))]
  rw [this]; exact h

/-! ## slot arrays -/

theorem ReadAs.split : {a b : List Item} → {bs : Bytes} → ReadAs (a ++ b) bs → ∃ b1 b2, ReadAs a b1 ∧ ReadAs b b2 ∧ bs = b1 ++ b2
  | [], _, bs, h => ⟨[], bs, ReadAs.nil, h, rfl⟩
  | i :: a, b, bs, h => by
    obtain ⟨cs, hp, rfl⟩ := h
    cases cs with
    | nil => exact hp.elim
    | cons c cs =>
      obtain ⟨b1, b2, h1, h2, h3⟩ := ReadAs.split (a := a) (b := b) ⟨cs, hp.2, rfl⟩
      obtain ⟨ds, h4, rfl⟩ := h1
      exact ⟨c ++ ds.flatten, b2, ⟨c :: ds, ⟨hp.1, h4⟩, rfl⟩, h2, by rw [List.flatten_cons, h3, List.append_assoc]⟩

theorem ReadAs.single {i : Item} {bs : Bytes} (h : ReadAs [i] bs) : i.Accepts bs := by
  obtain ⟨cs, hp, rfl⟩ := h
  match cs, hp with
  | [c], hp => simpa using hp.1

theorem natLE_inj {n x y : Nat} (hx : x < 256 ^ n) (hy : y < 256 ^ n) (h : natLE n x = natLE n y) : x = y := by
  have := congrArg leNat h
  rwa [leNat_natLE, leNat_natLE, Nat.mod_eq_of_lt hx, Nat.mod_eq_of_lt hy] at this

theorem slot_accepts {p : Int} {bs : Bytes} (h : (Item.int 4 true p).Accepts bs) (hp : IsI32 p) :
    (Item.slot (decide (p ≠ 0))).Accepts bs := by
  rcases h with rfl | h
  · simp only [Item.bytes]
    have hb : (p % (256 : Int) ^ 4).toNat < 256 ^ 4 := by omega
    have hl : leNat (natLE 4 (p % (256 : Int) ^ 4).toNat) = (p % (256 : Int) ^ 4).toNat := by
      rw [leNat_natLE, Nat.mod_eq_of_lt hb]
    unfold IsI32 at hp
    by_cases h0 : p = 0
    · subst h0; exact .inl rfl
    · by_cases h1 : p = 1
      · subst h1; exact .inl rfl
      · right
        rw [decide_eq_true h0]
        refine ⟨natLE_length _ _, ?_⟩
        rw [hl]
        constructor <;> omega
  · exact h.elim

theorem pointers_readAs {l : List (Option α)} {ps : List Int} {bs : Bytes} (h : ReadAs (Layout.each Layout.i32 ps) bs)
    (hp : AllOf IsI32 ps) (he : l.map Option.isSome = ps.map fun p => decide (p ≠ 0)) : ReadAs (Layout.pointers l) bs := by
  induction ps generalizing l bs with
  | nil =>
    obtain rfl : l = [] := by simpa using he
    exact h
  | cons p ps ih =>
    match l, he with
    | o :: l, he =>
      simp only [List.map_cons, List.cons.injEq] at he
      obtain ⟨b1, b2, h1, h2, rfl⟩ := ReadAs.split (a := Layout.i32 p) (b := Layout.each Layout.i32 ps) h
      refine ReadAs.append (a := [.slot o.isSome]) (b := Layout.pointers l) (ReadAs.item ?_)
        (ih h2 (fun x hx => hp x (List.mem_cons_of_mem _ hx)) he.2)
      rw [he.1]
      exact slot_accepts h1.single (hp p List.mem_cons_self)

/-! ## struct-packed blocks -/

theorem unpack_accepts (c : Code) {bs : Bytes} (h : bs.length = c.size) : (Item.packed c (unpackCode c bs)).Accepts bs := by
  cases c with
  | f => exact floatOfBytes_accepts h
  | _ => exact .inl (IntRead.bytes (s := true) ⟨h, rfl⟩)

theorem unpackCodes_readAs {cs : List Code} {bs : Bytes} (h : bs.length = codesSize cs) :
    ReadAs (List.zipWith Item.packed cs (unpackCodes cs bs)) bs := by
  induction cs generalizing bs with
  | nil =>
    obtain rfl : bs = [] := by simpa [codesSize] using h
    exact ReadAs.nil
  | cons c cs ih =>
    simp only [codesSize] at h
    have hl1 : (bs.take c.size).length = c.size := by rw [List.length_take]; omega
    have hl2 : (bs.drop c.size).length = codesSize cs := by rw [List.length_drop]; omega
    have := ReadAs.append (a := [_]) (ReadAs.item (unpack_accepts c hl1)) (ih hl2)
    rw [List.take_append_drop] at this
    exact this

end Genie
