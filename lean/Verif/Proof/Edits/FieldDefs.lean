import Verif.Proof.Edits.Flat
import Verif.Proof.Edits.Places
/-! # What is shown for the fields -/

namespace Genie
open Layout

/-- The item of an integer field: its bytes, and the one exception, raised if the value does not fit. -/
structure IntItem (width : Nat) (signed : Bool) (it : Int → Item) : Prop where
  bytes : ∀ i, (it i).bytes = natLE width (i % (256 : Int) ^ width).toNat
  cause : ∃ e, (e = .overflowError ∨ e = .structError) ∧ ∀ i, (it i).cause = if FitsInt width signed i then none else some e

theorem IntItem.int (w : Nat) (s : Bool) : IntItem w s (fun i => .int w s i) := ⟨fun _ => rfl, _, .inl rfl, fun _ => rfl⟩
theorem IntItem.b : IntItem 1 true (fun i => .packed .b (.int i)) := ⟨fun _ => rfl, _, .inr rfl, fun _ => rfl⟩
theorem IntItem.h : IntItem 2 true (fun i => .packed .h (.int i)) := ⟨fun _ => rfl, _, .inr rfl, fun _ => rfl⟩
theorem IntItem.l : IntItem 4 true (fun i => .packed .l (.int i)) := ⟨fun _ => rfl, _, .inr rfl, fun _ => rfl⟩

/-- The item of a float field: its bytes; if it is struct-packed, it raises if the value is too large. -/
structure FloatItem (it : PyFloat → Item) : Prop where
  bytes : ∀ z, (it z).bytes = bytesOfFloat z
  cause : (∀ z, (it z).cause = none) ∨ (∀ z, (it z).cause = if TooLarge z then some .overflowError else none)

theorem FloatItem.float : FloatItem (fun i => .float i) := ⟨fun _ => rfl, .inl fun _ => rfl⟩
theorem FloatItem.f : FloatItem (fun i => .packed .f (.float i)) := ⟨fun _ => rfl, .inr fun _ => rfl⟩

structure IntField.OK (n : Node) (v : Version) (f : IntField n.Obj) : Prop where
  self : ∀ x, f.set x (f.get x) = x
  get_set : ∀ x i, f.get (f.set x i) = i
  fits : ∀ x, n.WF v x → FitsInt f.width f.signed (f.get x)
  wf : ∀ x, n.WF v x → ∀ i, FitsInt f.width f.signed i → n.WF v (f.set x i)
  splits : ∀ x, n.WF v x → ∃ it : Int → Item, IntItem f.width f.signed it ∧
    Splits (fun _ => True) (fun i => n.layout v (f.set x i)) (fun i => [it i])

structure FloatField.OK (n : Node) (v : Version) (f : FloatField n.Obj) : Prop where
  self : ∀ x y, f.get x = some y → f.set x y = x
  get_set : ∀ x y, f.get (f.set x y) = some y
  fits : ∀ x, n.WF v x → ∀ y, f.get x = some y → IsF32 y
  wf : ∀ x, n.WF v x → ∀ y, f.get x = some y → ∀ i, IsF32 i → n.WF v (f.set x i)
  splits : ∀ x, n.WF v x → ∀ y, f.get x = some y → ∃ it : PyFloat → Item, FloatItem it ∧
    Splits (fun _ => True) (fun i => n.layout v (f.set x i)) (fun i => [it i])

structure TextField.OK (n : Node) (v : Version) (f : TextField n.Obj) : Prop where
  self : ∀ x, f.set x (f.get x) = x
  get_set : ∀ x i, f.get (f.set x i) = i
  wf : ∀ x, n.WF v x → ∀ i, IsDebugStr i → n.WF v (f.set x i)
  splits : ∀ x, n.WF v x → Splits (fun _ => True) (fun i => n.layout v (f.set x i)) text

structure ListField.FixedOK (n : Node) (v : Version) (len : Nat) (f : ListField n.Obj) : Prop where
  self : ∀ x, f.set x (f.get x) = x
  get_set : ∀ x l, f.get (f.set x l) = l
  clean : ∀ e, f.ok e → causes (f.items e) = []
  old : ∀ x, n.WF v x → Exactly len f.ok (f.get x)
  wf : ∀ x, n.WF v x → ∀ l, AllOf f.ok l → (n.WF v (f.set x l) ↔ l.length = len)
  splits : ∀ x, n.WF v x → Splits (fun _ => True) (fun l => n.layout v (f.set x l)) (each f.items)

structure ListField.SlotsOK (n : Node) (v : Version) (max : Nat) (f : ListField n.Obj) : Prop where
  self : ∀ x, f.set x (f.get x) = x
  get_set : ∀ x l, f.get (f.set x l) = l
  old : ∀ x, n.WF v x → UpTo max f.ok (f.get x)
  wf : ∀ x, n.WF v x → ∀ l, n.WF v (f.set x l) ↔ UpTo max f.ok l

structure ListField.CountedOK (n : Node) (v : Version) (max : Nat) (f : ListField n.Obj) : Prop extends f.SlotsOK n v max where
  splits : ∀ x, n.WF v x → Splits (fun l => l.length = (f.get x).length) (fun l => n.layout v (f.set x l)) (each f.items)

theorem forall_nil {p : α → Prop} : ∀ f ∈ ([] : List α), p f := fun _ h => (by cases h)
theorem forall_cons {p : α → Prop} {a : α} {l : List α} (h : p a) (t : ∀ f ∈ l, p f) : ∀ f ∈ a :: l, p f :=
  fun f hf => by
    rcases List.mem_cons.1 hf with rfl | hf
    · exact h
    · exact t f hf
theorem forall_append {p : α → Prop} {a b : List α} (h : ∀ f ∈ a, p f) (t : ∀ f ∈ b, p f) : ∀ f ∈ a ++ b, p f :=
  fun f hf => by
    rcases List.mem_append.1 hf with hf | hf
    · exact h f hf
    · exact t f hf
theorem forall_ite {p : α → Prop} {c : Prop} [Decidable c] {a : List α} (h : c → ∀ f ∈ a, p f) : ∀ f ∈ (if c then a else []), p f :=
  fun f hf => by
    split at hf
    · exact h ‹_› f hf
    · cases hf

theorem fits_i8 {i : Int} : FitsInt 1 true i ↔ IsI8 i := by unfold FitsInt IsI8; simp only [if_true]; omega

theorem Exactly.two {p : α → Prop} {l : List α} (h : Exactly 2 p l) : ∃ a b, l = [a, b] := by
  match l, h.1 with
  | [a, b], _ => exact ⟨a, b, rfl⟩
theorem Exactly.three {p : α → Prop} {l : List α} (h : Exactly 3 p l) : ∃ a b c, l = [a, b, c] := by
  match l, h.1 with
  | [a, b, c], _ => exact ⟨a, b, c, rfl⟩
theorem Exactly.six {p : α → Prop} {l : List α} (h : Exactly 6 p l) : ∃ a b c d e f, l = [a, b, c, d, e, f] := by
  match l, h.1 with
  | [a, b, c, d, e, f], _ => exact ⟨a, b, c, d, e, f, rfl⟩

theorem exactly_iff {p : α → Prop} {n : Nat} {l : List α} (h : AllOf p l) : Exactly n p l ↔ l.length = n := ⟨fun k => k.1, fun k => ⟨k, h⟩⟩

theorem clean_class (c : RecordClass) {v : Version} (e : c.Obj) (h : c.WF v e) : causes (c.layout v e) = [] := RecordClass.clean c h

theorem sameLength_countU8 {l l' : List α} (h : l.length = l'.length) : countU8 l = countU8 l' := by simp [countU8, h]
theorem sameLength_countI16 {l l' : List α} (h : l.length = l'.length) : countI16 l = countI16 l' := by simp [countI16, h]
theorem sameLength_countI32 {l l' : List α} (h : l.length = l'.length) : countI32 l = countI32 l' := by simp [countI32, h]

end Genie
