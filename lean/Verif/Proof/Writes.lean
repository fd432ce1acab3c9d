import Verif.Spec.Layout
import Verif.Proof.Int
import Verif.Proof.Utf8
import Verif.Proof.FloatValue
import Verif.Proof.Framework
/-!
# Writers against layouts

`Writes w its`: the writer expression `w` returns the bytes of the items `its` if they can all be written, and otherwise raises
one of the exceptions that the items call for.
-/

namespace Genie

/-- See above. -/
structure Writes (w : Py Bytes) (its : List Item) : Prop where
  ok : ∀ bs, w = .ok bs → causes its = [] ∧ bs = layoutBytes its
  error : ∀ e, w = .error e → e ∈ causes its

theorem causes_nil : causes [] = [] := rfl
theorem causes_append (a b : List Item) : causes (a ++ b) = causes a ++ causes b := List.filterMap_append
theorem layoutBytes_append (a b : List Item) : layoutBytes (a ++ b) = layoutBytes a ++ layoutBytes b := List.flatMap_append
theorem layoutSize_append (a b : List Item) : layoutSize (a ++ b) = layoutSize a + layoutSize b := by
  simp [layoutSize]

theorem Writes.ok_of {w : Py Bytes} {its : List Item} (h : Writes w its) (hc : causes its = []) : w = .ok (layoutBytes its) := by
  cases hw : w with
  | ok bs => rw [(h.ok bs hw).2]
  | error e => have := h.error e hw; rw [hc] at this; cases this

theorem Writes.nil : Writes (.ok []) [] := ⟨fun _ h => by cases h; exact ⟨rfl, rfl⟩, fun _ h => by cases h⟩

theorem Writes.append {w : Py Bytes} {ws : List (Py Bytes)} {a b : List Item} (h1 : Writes w a) (h2 : Writes (joinB ws) b) :
    Writes (joinB (w :: ws)) (a ++ b) := by
  constructor
  · intro bs h
    obtain ⟨b1, b2, e1, e2, rfl⟩ := joinB_cons_eq_ok.1 h
    obtain ⟨c1, rfl⟩ := h1.ok _ e1
    obtain ⟨c2, rfl⟩ := h2.ok _ e2
    rw [causes_append, layoutBytes_append, c1, c2]; exact ⟨rfl, rfl⟩
  · intro e h
    rw [causes_append]
    cases hw : w with
    | error e' =>
      rw [hw] at h; simp only [joinB] at h; cases h
      exact List.mem_append_left _ (h1.error _ hw)
    | ok b =>
      rw [hw] at h; simp only [joinB] at h
      cases hj : joinB ws with
      | ok bs => rw [hj] at h; cases h
      | error e' => rw [hj] at h; cases h; exact List.mem_append_right _ (h2.error _ hj)

theorem Writes.cons {w : Py Bytes} {ws : List (Py Bytes)} {a : List Item} {l : List (List Item)} (h1 : Writes w a)
    (h2 : Writes (joinB ws) l.flatten) : Writes (joinB (w :: ws)) (a :: l).flatten := by
  rw [List.flatten_cons]; exact h1.append h2

theorem Writes.joinNil : Writes (joinB []) (List.flatten []) := Writes.nil

theorem Writes.each {w : α → Py Bytes} {f : α → List Item} (l : List α) (h : ∀ x ∈ l, Writes (w x) (f x)) :
    Writes (joinB (l.map w)) (Layout.each f l) := by
  induction l with
  | nil => exact Writes.nil
  | cons x l ih =>
    have := (h x List.mem_cons_self).append (ih fun y hy => h y (List.mem_cons_of_mem _ hy))
    simpa [Layout.each] using this

theorem Writes.item {w : Py Bytes} {i : Item} (ho : ∀ bs, w = .ok bs → i.cause = none ∧ bs = i.bytes)
    (he : ∀ e, w = .error e → i.cause = some e) : Writes w [i] := by
  constructor
  · intro bs h
    obtain ⟨h1, h2⟩ := ho bs h
    simp [causes, layoutBytes, h1, h2]
  · intro e h
    simp [causes, he e h]

theorem intToBytes_eq (i : Int) (n : Nat) (s : Bool) :
    intToBytes i n s = if FitsInt n s i then .ok (natLE n (i % (256 : Int) ^ n).toNat) else .error .overflowError := by
  unfold intToBytes FitsInt
  cases s with
  | true => simp
  | false =>
    simp only [Bool.false_eq_true, if_false]
    split
    · rename_i h; rw [Int.emod_eq_of_lt h.1 h.2]
    · rfl

theorem Writes.int (i : Int) (n : Nat) (s : Bool) : Writes (Int_to_bytes i n s) [.int n s i] := by
  refine Writes.item ?_ ?_ <;> unfold Int_to_bytes <;> rw [intToBytes_eq] <;> intro x hx <;> split at hx <;> cases hx <;>
    simp_all [Item.cause, Item.bytes]

theorem Writes.count (m : Nat) (n : Nat) (s : Bool) : Writes (Int_to_bytes m n s) [.count n s m] := by
  refine Writes.item ?_ ?_ <;> unfold Int_to_bytes <;> rw [intToBytes_eq] <;> intro x hx <;> split at hx <;> cases hx <;>
    simp_all [Item.cause, Item.bytes]
  rename_i h
  have : (m : Int) < 256 ^ n := by
    unfold FitsInt at h
    split at h <;> omega
  rw [Int.emod_eq_of_lt (by omega) this]; rfl

theorem Writes.idle2 : Writes (writeInt16 0) [.idle 2] :=
  ⟨fun bs h => ⟨rfl, by cases h; rfl⟩, fun e h => by cases h⟩

theorem Writes.u8 (i : Int) : Writes (writeInt8 i) (Layout.u8 i) := Writes.int _ _ _
theorem Writes.i16 (i : Int) : Writes (writeInt16 i) (Layout.i16 i) := Writes.int _ _ _
theorem Writes.i32 (i : Int) : Writes (writeInt32 i) (Layout.i32 i) := Writes.int _ _ _
theorem Writes.u32 (i : Int) : Writes (writeInt32 i (signed := false)) (Layout.u32 i) := Writes.int _ _ _
theorem Writes.countU8 (l : List α) : Writes (writeInt8 l.length) (Layout.countU8 l) := Writes.count _ _ _
theorem Writes.countI16 (l : List α) : Writes (writeInt16 l.length) (Layout.countI16 l) := Writes.count _ _ _
theorem Writes.countI32 (l : List α) : Writes (writeInt32 l.length) (Layout.countI32 l) := Writes.count _ _ _
theorem Writes.countU32 (l : List α) : Writes (writeInt32 l.length (signed := false)) (Layout.countU32 l) := Writes.count _ _ _
theorem Writes.f32 (x : PyFloat) : Writes (writeFloat x) (Layout.f32 x) :=
  Writes.item (fun _ h => by cases h; exact ⟨rfl, rfl⟩) (fun _ h => by cases h)

theorem Writes.u8s (l : List Int) : Writes (writeInt8Array l) (Layout.each Layout.u8 l) := Writes.each l fun _ _ => Writes.u8 _
theorem Writes.i16s (l : List Int) : Writes (writeInt16Array l) (Layout.each Layout.i16 l) := Writes.each l fun _ _ => Writes.i16 _
theorem Writes.i32s (l : List Int) : Writes (writeInt32Array l) (Layout.each Layout.i32 l) := Writes.each l fun _ _ => Writes.i32 _
theorem Writes.f32s (l : List PyFloat) : Writes (writeFloatArray l) (Layout.each Layout.f32 l) :=
  Writes.each l fun _ _ => Writes.f32 _

theorem strEncode_eq (s : PyStr) :
    strEncode s = if ∀ c ∈ s, IsScalar c then .ok (Item.utf8 s) else .error .unicodeEncodeError := by
  induction s with
  | nil => simp [strEncode, Item.utf8]
  | cons c s ih =>
    simp only [strEncode, isScalar_iff, ih, List.forall_mem_cons]
    by_cases h1 : IsScalar c <;> by_cases h2 : ∀ x ∈ s, IsScalar x
    · rw [if_pos h1, if_pos h2, if_pos ⟨h1, h2⟩]; rfl
    · rw [if_pos h1, if_neg h2, if_neg (fun h => h2 h.2)]
    · rw [if_neg h1, if_neg (fun h => h1 h.1)]
    · rw [if_neg h1, if_neg (fun h => h1 h.1)]

theorem utf8_length (s : PyStr) : (Item.utf8 s).length = utf8Len s := by
  induction s with
  | nil => rfl
  | cons c s ih => simp_all [Item.utf8, utf8Len, encodeCP_length]

theorem writeU16_nat (n : Nat) :
    writeInt16 (n : Int) (signed := false) = if n ≤ 65535 then .ok (natLE 2 n) else .error .overflowError := by
  unfold writeInt16 Int_to_bytes intToBytes
  simp only [Bool.false_eq_true, if_false]
  by_cases h : n ≤ 65535
  · rw [if_pos (by omega), if_pos h, Int.toNat_natCast]
  · rw [if_neg (by omega), if_neg h]

theorem writeMarker : writeInt16 0x0A60 (signed := false) = .ok (natLE 2 0x0A60) := by
  have := writeU16_nat 0x0A60
  rw [if_pos (by omega)] at this
  exact this

theorem writeDebugString_items (s : PyStr) : writeDebugString s =
    if ∀ c ∈ s, IsScalar c then
      (if utf8Len s ≤ 65535 then .ok (natLE 2 0x0A60 ++ natLE 2 (utf8Len s) ++ Item.utf8 s) else .error .overflowError)
    else .error .unicodeEncodeError := by
  unfold writeDebugString
  rw [strEncode_eq]
  by_cases hs : ∀ c ∈ s, IsScalar c
  · rw [if_pos hs, if_pos hs]
    show joinB [writeInt16 0x0A60 (signed := false), writeInt16 (Item.utf8 s).length (signed := false), .ok (Item.utf8 s)] = _
    rw [writeMarker, writeU16_nat, utf8_length]
    generalize natLE 2 0x0A60 = m
    by_cases hn : utf8Len s ≤ 65535
    · rw [if_pos hn, if_pos hn]; simp [joinB]
    · rw [if_neg hn, if_neg hn]; simp [joinB]
  · rw [if_neg hs, if_neg hs]

theorem Writes.text (s : PyStr) : Writes (writeDebugString s) (Layout.text s) := by
  unfold Layout.text
  rw [writeDebugString_items]
  by_cases hs : ∀ c ∈ s, IsScalar c
  · rw [if_pos hs]
    by_cases hn : utf8Len s ≤ 65535
    · rw [if_pos hn]
      refine Writes.item (fun bs h => ?_) (fun e h => by cases h)
      cases h
      exact ⟨by show (if ∀ c ∈ s, IsScalar c then _ else _) = _; rw [if_pos hs, if_pos hn], rfl⟩
    · rw [if_neg hn]
      refine Writes.item (fun bs h => by cases h) (fun e h => ?_)
      cases h
      show (if ∀ c ∈ s, IsScalar c then _ else _) = _; rw [if_pos hs, if_neg hn]
  · rw [if_neg hs]
    refine Writes.item (fun bs h => by cases h) (fun e h => ?_)
    cases h
    show (if ∀ c ∈ s, IsScalar c then _ else _) = _; rw [if_neg hs]

theorem Writes.fixedText (n : Nat) (s : PyStr) : Writes (writeString n s) [.fixedText n s] := by
  refine Writes.item ?_ ?_ <;> intro x hx <;> unfold writeString String_to_bytes at hx <;> rw [strEncode_eq] at hx <;>
    split at hx
  all_goals (
    rename_i h1
    split at h1 <;> rename_i hs <;> cases h1 <;> cases hx
    all_goals first
    | exact ⟨if_pos hs, by simp [Item.bytes, utf8_length]⟩
    | exact if_neg hs)

/-! ## blocks -/

theorem narrowOverflows_iff_tooLarge (d : Nat) (hd : d < 2 ^ 64) :
    F.narrowOverflows d = true ↔ TooLarge ⟨BitVec.ofNat 64 d⟩ := by
  have e : (BitVec.ofNat 64 d).toNat = d := by simp [Nat.mod_eq_of_lt hd]
  unfold TooLarge; simp only [e]
  by_cases hf : Finite64 d
  · rw [F.narrowOverflows_iff hf]; simp [hf]
  · have hx : F.exp64 d = 2047 := by
      unfold Finite64 at hf; simp only [Decidable.not_not] at hf; exact hf
    simp [hf, F.narrowOverflows, hx]

theorem tooLarge_bits (x : PyFloat) : F.narrowOverflows x.bits.toNat = true ↔ TooLarge x := by
  rw [narrowOverflows_iff_tooLarge _ x.bits.isLt, BitVec.ofNat_toNat, BitVec.setWidth_eq]

theorem F.ofInt_lt {i : Int} {d : Nat} (h : F.ofInt i = some d) : d < 2 ^ 64 := by
  unfold F.ofInt at h
  split at h <;> simp at h
  subst h
  split <;> omega

theorem Writes.packed (c : Code) (v : Val) : Writes (packCode c v) [.packed c v] := by
  refine Writes.item ?_ ?_ <;> intro x hx
  all_goals (
    cases v with
    | float y =>
      cases c with
      | f =>
        simp only [packCode] at hx
        simp only [Item.cause, Item.bytes, ← tooLarge_bits]
        split at hx <;> cases hx <;> simp_all
      | _ => simp only [packCode] at hx; cases hx; all_goals rfl
    | int i =>
      cases c with
      | f =>
        simp only [packCode] at hx
        cases hi : F.ofInt i with
        | none => rw [hi] at hx; cases hx; all_goals simp [Item.cause, hi]
        | some d =>
          rw [hi] at hx
          simp only [Item.cause, Item.bytes, hi, ← narrowOverflows_iff_tooLarge d (F.ofInt_lt hi)]
          dsimp only at hx
          split at hx <;> cases hx <;> simp_all
      | _ =>
        simp only [packCode, intToBytes_eq] at hx
        split at hx <;> rename_i h1 <;> split at h1 <;> cases h1 <;> cases hx <;> simp_all [Item.cause, Item.bytes])

theorem Writes.packCodes : (cs : List Code) → (vs : List Val) →
    Writes (Genie.packCodes cs vs) (List.zipWith Item.packed cs vs)
  | [], _ => by cases ‹List Val› <;> exact Writes.nil
  | _ :: _, [] => Writes.nil
  | c :: cs, v :: vs => by
    have h : Genie.packCodes (c :: cs) (v :: vs) = joinB [packCode c v, Genie.packCodes cs vs] := by
      rw [show [packCode c v, Genie.packCodes cs vs] = packCode c v :: [Genie.packCodes cs vs] from rfl]
      conv => rhs; rw [joinB.eq_def]
      simp only [joinB_single]
      rfl
    rw [h, List.zipWith_cons_cons]
    have := (Writes.packed c v).append (ws := [Genie.packCodes cs vs]) (b := List.zipWith Item.packed cs vs)
      (by rw [joinB_single]; exact Writes.packCodes cs vs)
    exact this

theorem Writes.requires {c : Prop} [Decidable c] {e : PyErr} {w : Py Bytes} {its : List Item} (h : Writes w its) :
    Writes (if c then w else .error e) (Layout.requires c e ++ its) := by
  by_cases hc : c
  · rw [if_pos hc]
    have h1 : causes (Layout.requires c e) = [] := by simp [causes, Layout.requires, Item.cause, hc]
    exact ⟨fun bs hb => by rw [causes_append, layoutBytes_append, h1]; exact h.ok bs hb,
      fun e' he => by rw [causes_append, h1]; exact h.error e' he⟩
  · rw [if_neg hc]
    have h1 : causes (Layout.requires c e) = [e] := by simp [causes, Layout.requires, Item.cause, hc]
    exact ⟨fun _ hb => (by cases hb), fun e' he => by rw [causes_append, h1]; cases he; simp⟩

/-- The format string (with its byte-order mark) has these codes. -/
theorem Writes.block {fmt : String} {fmt' : String} (vs : List Val) (hf : parseFmt fmt = some (Layout.codes fmt')) :
    Writes (structPack fmt vs) (Layout.block fmt' vs) := by
  unfold structPack Layout.block
  rw [hf]
  by_cases h : (Layout.codes fmt').length = vs.length
  · rw [if_pos h]
    exact Writes.requires (Writes.packCodes _ _)
  · dsimp only
    rw [if_neg h, if_neg h]
    have h1 : causes (Layout.requires ((Layout.codes fmt').length = vs.length) .structError ++ []) = [.structError] := by
      simp [causes, Layout.requires, Item.cause, h]
    exact ⟨fun _ hb => (by cases hb), fun e' he => by rw [h1]; cases he; simp⟩

/-! ## containers -/

theorem Writes.class_ {f : Version → α → Py Bytes} {l : α → List Item} {v : Version} {x : α} (h : Writes (f v x) (l x)) :
    Writes (writeClass f x v) (l x) := h

theorem Writes.classes {f : Version → α → Py Bytes} {g : α → List Item} {v : Version} (h : ∀ x, Writes (f v x) (g x)) (l : List α) :
    Writes (writeClassArray f l v) (Layout.each g l) := Writes.each l fun x _ => h x

theorem Writes.classesOpt {f : Version → α → Py Bytes} {g : α → List Item} {v : Version} (h : ∀ x, Writes (f v x) (g x))
    (l : List (Option α)) : Writes (writeClassArrayOpt f l v) (Layout.eachPresent g l) :=
  Writes.each _ fun x _ => h x

theorem Writes.part {c c' : Prop} [Decidable c] [Decidable c'] (hc : c ↔ c') {w : α → Py Bytes} {f : α → List Item}
    (h : ∀ x, Writes (w x) (f x)) (o : Option α) : Writes (writeIf c w o) (Layout.part c' f o) := by
  unfold writeIf Layout.part
  by_cases hh : c
  · rw [if_pos hh, if_pos (hc.1 hh)]
    cases o with
    | none => exact Writes.nil
    | some a => exact h a
  · rw [if_neg hh, if_neg (fun k => hh (hc.2 k))]; exact Writes.nil

theorem Writes.ite {c c' : Prop} [Decidable c] [Decidable c'] (hc : c ↔ c') {w w' : Py Bytes} {a b : List Item}
    (h1 : c → c' → Writes w a) (h2 : ¬ c → ¬ c' → Writes w' b) : Writes (if c then w else w') (if c' then a else b) := by
  by_cases hh : c
  · rw [if_pos hh, if_pos (hc.1 hh)]; exact h1 hh (hc.1 hh)
  · have : ¬ c' := fun k => hh (hc.2 k)
    rw [if_neg hh, if_neg this]; exact h2 hh this

theorem ge84_iff (v : Version) : v.ge .VER_84 = true ↔ 84 ≤ v.num := by cases v <;> decide
theorem ge88_iff (v : Version) : v.ge .VER_88 = true ↔ 88 ≤ v.num := by cases v <;> decide
theorem ge78_iff (v : Version) : v.ge .VER_78 = true ↔ 78 ≤ v.num := by cases v <;> decide


theorem Writes.fail {e : PyErr} : Writes (.error e) (Layout.requires False e) :=
  ⟨fun _ h => (by cases h), fun e' h => by cases h; simp [causes, Layout.requires, Item.cause]⟩

theorem Writes.since16 {l : List α} (v : Version) :
    Writes (writeInt16If l.length (v.ge .VER_78)) (Layout.since v 78 (Layout.countI16 l)) := by
  unfold writeInt16If Layout.since
  by_cases h : 78 ≤ v.num
  · rw [if_neg (by simp [(ge78_iff v).2 h]), if_pos h]; exact Writes.countI16 l
  · have : v.ge .VER_78 = false := by
      cases hv : v.ge .VER_78 with
      | false => rfl
      | true => exact absurd ((ge78_iff v).1 hv) h
    rw [if_pos (by simp [this]), if_neg h]; exact Writes.nil

theorem Writes.pointers {l : List (Option α)} {f : Option α → Int} (h0 : f none = 0) (h1 : ∀ a, f (some a) = 1) :
    Writes (writeInt32Array (l.map f)) (Layout.pointers l) := by
  have : l.map f = l.map fun o => if o.isSome then 1 else 0 := by
    apply List.map_congr_left; intro o _; cases o <;> simp [h0, h1]
  rw [this]
  have k := Writes.i32s (l.map fun o => if o.isSome then 1 else 0)
  have hs : ∀ b : Bool, (Item.int 4 true (if b then 1 else 0)).cause = (Item.slot b).cause ∧
      (Item.int 4 true (if b then 1 else 0)).bytes = (Item.slot b).bytes := by decide +kernel
  have hc : causes (Layout.each Layout.i32 (l.map fun o => if o.isSome then 1 else 0)) = causes (Layout.pointers l) := by
    clear k this
    induction l with
    | nil => rfl
    | cons o l ih =>
      show causes (Item.int 4 true (if o.isSome then 1 else 0) :: Layout.each Layout.i32 (l.map fun o => if o.isSome then 1 else 0)) =
        causes (Item.slot o.isSome :: Layout.pointers l)
      unfold causes at ih ⊢
      simp only [List.filterMap_cons, (hs o.isSome).1, ih]
  have hb : layoutBytes (Layout.each Layout.i32 (l.map fun o => if o.isSome then 1 else 0)) = layoutBytes (Layout.pointers l) := by
    clear k this hc
    induction l with
    | nil => rfl
    | cons o l ih =>
      show layoutBytes (Item.int 4 true (if o.isSome then 1 else 0) :: Layout.each Layout.i32 (l.map fun o => if o.isSome then 1 else 0)) =
        layoutBytes (Item.slot o.isSome :: Layout.pointers l)
      unfold layoutBytes at ih ⊢
      simp only [List.flatMap_cons, (hs o.isSome).2, ih]
  exact ⟨fun bs h => by rw [← hc, ← hb]; exact k.ok bs h, fun e h => by rw [← hc]; exact k.error e h⟩

/-- The class with writer `f` has layout `g`. -/
class HasLayout (f : Version → α → Py Bytes) (g : outParam (Version → α → List Item)) : Prop where
  writes : ∀ v x, Writes (f v x) (g v x)

theorem Writes.classI {f : Version → α → Py Bytes} {g : Version → α → List Item} [h : HasLayout f g] {v : Version} (x : α) :
    Writes (writeClass f x v) (g v x) := h.writes v x
theorem Writes.classesI {f : Version → α → Py Bytes} {g : Version → α → List Item} [h : HasLayout f g] {v : Version} (l : List α) :
    Writes (writeClassArray f l v) (Layout.each (g v) l) := Writes.classes (h.writes v) l
theorem Writes.classesOptI {f : Version → α → Py Bytes} {g : Version → α → List Item} [h : HasLayout f g] {v : Version}
    (l : List (Option α)) : Writes (writeClassArrayOpt f l v) (Layout.eachPresent (g v) l) := Writes.classesOpt (h.writes v) l

theorem joinB_nest (w : Py Bytes) (l : List (Py Bytes)) : joinB [w, joinB l] = joinB (w :: l) := by
  conv => lhs; rw [joinB.eq_def]
  conv => rhs; rw [joinB.eq_def]
  simp only [joinB_single]

theorem joinB_nest_left (w : Py Bytes) (l : List (Py Bytes)) : joinB [joinB l, w] = joinB (l ++ [w]) := by
  have h := joinB_append l [w]
  rw [h]

theorem Writes.bindPart {w : Py Bytes} {k : Bytes → Py Bytes} {l its : List Item} (h1 : Writes w l) (hs : ∀ i ∈ l, i ∈ its)
    (hk : ∀ s, w = .ok s → Writes (k s) its) : Writes (w >>= k) its := by
  cases hw : w with
  | ok s =>
    show Writes (k s) its
    exact hk s hw
  | error e =>
    refine ⟨fun bs h => (by cases h), fun e' h => ?_⟩
    cases h
    have := h1.error e hw
    unfold causes at this ⊢
    rw [List.mem_filterMap] at this ⊢
    obtain ⟨i, hi, hc⟩ := this
    exact ⟨i, hs i hi, hc⟩

/-- Closes `∀ i ∈ l, i ∈ List.flatten [… l …]`. -/
macro "inFlatten" : tactic => `(tactic| (
  intro i hi
  refine List.mem_flatten.2 ⟨_, ?_, hi⟩
  repeat (first | exact List.mem_cons_self | refine List.mem_cons_of_mem _ ?_)))

/-- Proves `Writes (joinB [w₁, …]) (List.flatten [l₁, …])` piece by piece. -/
macro "writes" : tactic => `(tactic| (
  repeat' (with_reducible first
    | exact Writes.joinNil
    | refine Writes.cons ?_ ?_
    | exact Writes.i16 _ | exact Writes.i32 _ | exact Writes.u8 _ | exact Writes.u32 _ | exact Writes.f32 _ | exact Writes.text _
    | exact Writes.u8s _ | exact Writes.i16s _ | exact Writes.i32s _ | exact Writes.f32s _
    | exact Writes.countU8 _ | exact Writes.countI16 _ | exact Writes.countI32 _ | exact Writes.countU32 _
    | exact Writes.classI _ | exact Writes.classesI _ | exact Writes.classesOptI _
    | exact Writes.since16 _ | exact Writes.fixedText _ _
    | refine Writes.block _ ?_)
  all_goals try (show parseFmt _ = some _; decide +kernel)))

end Genie
