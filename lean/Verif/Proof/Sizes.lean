import Verif.Spec.Sizes
import Verif.Proof.Writes
/-!
# Sizes of layouts

`Sized its n`: if the items can all be written, they take `n` bytes.
-/

namespace Genie

theorem natLE_len (w n : Nat) : (natLE w n).length = w := by
  induction w generalizing n with
  | zero => rfl
  | succ w ih => simp [natLE, ih]

theorem bytesOfFloat_len (x : PyFloat) : (bytesOfFloat x).length = 4 := by
  unfold bytesOfFloat; exact natLE_len _ _

theorem Item.bytes_length (i : Item) (h : i.cause = none) : i.bytes.length = i.size := by
  cases i with
  | int w s i => exact natLE_len _ _
  | count w s n => exact natLE_len _ _
  | float x => exact bytesOfFloat_len x
  | text s => simp only [Item.bytes, Item.size, List.length_append, natLE_len, utf8_length]
  | fixedText w s =>
    simp only [Item.bytes, Item.size, List.length_append, utf8_length, List.length_replicate]
    split <;> omega
  | slot b => exact natLE_len _ _
  | idle w => exact List.length_replicate
  | packed c v =>
    cases v with
    | float x => cases c <;> first | exact bytesOfFloat_len x | (simp [Item.cause] at h)
    | int i => cases c <;> first | exact bytesOfFloat_len _ | exact natLE_len _ _
  | requires p e => rfl

theorem causes_eq_nil {its : List Item} : causes its = [] ↔ ∀ i ∈ its, i.cause = none := by
  unfold causes; simp

theorem layoutBytes_length {its : List Item} (h : causes its = []) : (layoutBytes its).length = layoutSize its := by
  rw [causes_eq_nil] at h
  induction its with
  | nil => rfl
  | cons i its ih =>
    show (i.bytes ++ layoutBytes its).length = i.size + layoutSize its
    rw [List.length_append, Item.bytes_length i (h i (by simp)), ih fun j hj => h j (by simp [hj])]

/-- See above. -/
def Sized (its : List Item) (n : Nat) : Prop := causes its = [] → layoutSize its = n

theorem Sized.cast {its : List Item} {n m : Nat} (h : Sized its n) (e : n = m) : Sized its m := e ▸ h
theorem Sized.nil : Sized [] 0 := fun _ => rfl
theorem Sized.append {a b : List Item} {n m : Nat} (h1 : Sized a n) (h2 : Sized b m) : Sized (a ++ b) (n + m) := by
  intro h
  rw [causes_append, List.append_eq_nil_iff] at h
  rw [layoutSize_append, h1 h.1, h2 h.2]
theorem Sized.fnil : Sized (List.flatten []) 0 := fun _ => rfl
theorem Sized.cons {a : List Item} {l : List (List Item)} {n m : Nat} (h1 : Sized a n) (h2 : Sized l.flatten m) :
    Sized (a :: l).flatten (n + m) := by
  rw [List.flatten_cons]; exact h1.append h2

theorem Sized.item (i : Item) : Sized [i] i.size := fun _ => by simp [layoutSize]
theorem Sized.u8 (i : Int) : Sized (Layout.u8 i) 1 := Sized.item _
theorem Sized.i16 (i : Int) : Sized (Layout.i16 i) 2 := Sized.item _
theorem Sized.i32 (i : Int) : Sized (Layout.i32 i) 4 := Sized.item _
theorem Sized.u32 (i : Int) : Sized (Layout.u32 i) 4 := Sized.item _
theorem Sized.f32 (x : PyFloat) : Sized (Layout.f32 x) 4 := Sized.item _
theorem Sized.text (s : PyStr) : Sized (Layout.text s) (4 + utf8Len s) := Sized.item _
theorem Sized.countU8 (l : List α) : Sized (Layout.countU8 l) 1 := Sized.item _
theorem Sized.countI16 (l : List α) : Sized (Layout.countI16 l) 2 := Sized.item _
theorem Sized.countI32 (l : List α) : Sized (Layout.countI32 l) 4 := Sized.item _
theorem Sized.countU32 (l : List α) : Sized (Layout.countU32 l) 4 := Sized.item _
theorem Sized.requires (c : Prop) [Decidable c] (e : PyErr) : Sized (Layout.requires c e) 0 := Sized.item _

theorem Sized.each {f : α → List Item} {g : α → Nat} (h : ∀ x, Sized (f x) (g x)) (l : List α) :
    Sized (Layout.each f l) (l.map g).sum := by
  induction l with
  | nil => exact Sized.nil
  | cons a l ih => exact (h a).append ih

theorem Sized.eachConst {f : α → List Item} {n : Nat} (h : ∀ x, Sized (f x) n) (l : List α) :
    Sized (Layout.each f l) (n * l.length) :=
  (Sized.each h l).cast (by induction l with | nil => rfl | cons a l ih => simp [ih, Nat.mul_add, Nat.add_comm])

theorem Sized.pointers (l : List (Option α)) : Sized (Layout.pointers l) (4 * l.length) :=
  by
  have := Sized.eachConst (f := fun o : Option α => [Item.slot o.isSome]) (n := 4) (fun _ => Sized.item _) l
  have e : Layout.each (fun o : Option α => [Item.slot o.isSome]) l = Layout.pointers l := by
    clear this; unfold Layout.each Layout.pointers; induction l <;> simp_all
  rwa [e] at this
theorem Sized.u8s (l : List Int) : Sized (Layout.each Layout.u8 l) (1 * l.length) := Sized.eachConst Sized.u8 l
theorem Sized.i16s (l : List Int) : Sized (Layout.each Layout.i16 l) (2 * l.length) := Sized.eachConst Sized.i16 l
theorem Sized.i32s (l : List Int) : Sized (Layout.each Layout.i32 l) (4 * l.length) := Sized.eachConst Sized.i32 l
theorem Sized.f32s (l : List PyFloat) : Sized (Layout.each Layout.f32 l) (4 * l.length) := Sized.eachConst Sized.f32 l

theorem causes_requires {c : Prop} [Decidable c] {e : PyErr} : causes (Layout.requires c e) = [] ↔ c := by
  by_cases h : c <;> simp [causes, Layout.requires, Item.cause, h]

theorem zipWith_packed_size : (cs : List Code) → (vs : List Val) → cs.length = vs.length →
    layoutSize (List.zipWith Item.packed cs vs) = (cs.map Code.size).sum
  | [], [], _ => rfl
  | c :: cs, v :: vs, h => by
    have := zipWith_packed_size cs vs (by simpa using h)
    simp [layoutSize, Item.size] at this ⊢
    exact this

theorem Sized.block {fmt : String} (vs : List Val) {n : Nat} (h : ((Layout.codes fmt).map Code.size).sum = n) :
    Sized (Layout.block fmt vs) n := by
  intro hc
  unfold Layout.block at hc ⊢
  rw [causes_append, List.append_eq_nil_iff, causes_requires] at hc
  rw [layoutSize_append, if_pos hc.1, zipWith_packed_size _ _ hc.1, h]
  show 0 + _ = _
  omega

/-- The class with layout `f` has size `g`. -/
class HasSize (f : Version → α → List Item) (g : outParam (Version → α → Nat)) : Prop where
  sized : ∀ v x, Sized (f v x) (g v x)

theorem Sized.classI {f : Version → α → List Item} {g : Version → α → Nat} [h : HasSize f g] {v : Version} (x : α) :
    Sized (f v x) (g v x) := h.sized v x
theorem Sized.classesI {f : Version → α → List Item} {g : Version → α → Nat} [h : HasSize f g] {v : Version} (l : List α) :
    Sized (Layout.each (f v) l) (l.map (g v)).sum := Sized.each (h.sized v) l
theorem Sized.classesOptI {f : Version → α → List Item} {g : Version → α → Nat} [h : HasSize f g] {v : Version} (l : List (Option α)) :
    Sized (Layout.eachPresent (f v) l) ((l.filterMap id).map (g v)).sum := Sized.each (h.sized v) _
theorem Sized.part {c : Prop} [Decidable c] {f : α → List Item} {g : α → Nat} (h : ∀ x, Sized (f x) (g x)) (o : Option α) :
    Sized (Layout.part c f o) (partSize c g o) := by
  unfold Layout.part partSize
  split
  · cases o with
    | none => exact Sized.nil
    | some a => exact h a
  · exact Sized.nil
theorem Sized.partI {c : Prop} [Decidable c] {f : Version → α → List Item} {g : Version → α → Nat} [h : HasSize f g] {v : Version}
    (o : Option α) : Sized (Layout.part c (f v) o) (partSize c (g v) o) := Sized.part (h.sized v) o
theorem Sized.since {v : Version} {k : Nat} {its : List Item} {n : Nat} (h : Sized its n) :
    Sized (Layout.since v k its) (if k ≤ v.num then n else 0) := by
  unfold Layout.since; split
  · exact h
  · exact Sized.nil
theorem Sized.ite {c : Prop} [Decidable c] {a b : List Item} {n m : Nat} (h1 : c → Sized a n) (h2 : ¬ c → Sized b m) :
    Sized (if c then a else b) (if c then n else m) := by
  split
  · exact h1 ‹_›
  · exact h2 ‹_›

theorem sum_map_const (n : Nat) (l : List α) : (l.map fun _ => n).sum = n * l.length := by
  induction l with
  | nil => rfl
  | cons a l ih => simp [ih, Nat.mul_add, Nat.add_comm]

macro "sizes" : tactic => `(tactic| (
  repeat' (with_reducible first
    | exact Sized.fnil
    | apply Sized.cons
    | exact Sized.i16 _ | exact Sized.i32 _ | exact Sized.u8 _ | exact Sized.u32 _ | exact Sized.f32 _ | exact Sized.text _
    | exact Sized.u8s _ | exact Sized.i16s _ | exact Sized.i32s _ | exact Sized.f32s _
    | exact Sized.countU8 _ | exact Sized.countI16 _ | exact Sized.countI32 _ | exact Sized.countU32 _
    | exact Sized.requires _ _ | exact Sized.pointers _
    | apply Sized.since | exact Sized.partI _ | exact Sized.part Sized.f32 _
    | exact Sized.classI _ | exact Sized.classesI _ | exact Sized.classesOptI _
    | exact Sized.block _ rfl)))

end Genie
