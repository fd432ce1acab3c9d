import Verif.Proof.Sizes
/-!
# Which exceptions a layout can call for
-/

namespace Genie

/-- The exceptions that a single value can cause: out of range, wrong type or number in a struct block, lone surrogate. -/
def PlainErr (e : PyErr) : Prop := e = .overflowError ∨ e = .structError ∨ e = .unicodeEncodeError

/-- Only such exceptions. -/
def Plain (its : List Item) : Prop := ∀ e ∈ causes its, PlainErr e

theorem mem_causes {e : PyErr} {its : List Item} : e ∈ causes its ↔ ∃ i ∈ its, i.cause = some e := by
  unfold causes; exact List.mem_filterMap

theorem mem_causes_append {e : PyErr} {a b : List Item} : e ∈ causes (a ++ b) ↔ e ∈ causes a ∨ e ∈ causes b := by
  rw [causes_append]; exact List.mem_append

theorem mem_causes_each {e : PyErr} {f : α → List Item} {l : List α} :
    e ∈ causes (Layout.each f l) ↔ ∃ x ∈ l, e ∈ causes (f x) := by
  simp only [mem_causes, Layout.each, List.mem_flatMap]
  constructor
  · rintro ⟨i, ⟨x, hx, hi⟩, hc⟩; exact ⟨x, hx, i, hi, hc⟩
  · rintro ⟨x, hx, i, hi, hc⟩; exact ⟨i, ⟨x, hx, hi⟩, hc⟩

theorem mem_causes_eachPresent {e : PyErr} {f : α → List Item} {l : List (Option α)} :
    e ∈ causes (Layout.eachPresent f l) ↔ ∃ x, some x ∈ l ∧ e ∈ causes (f x) := by
  unfold Layout.eachPresent
  rw [mem_causes_each]
  simp

theorem mem_causes_requires {e e' : PyErr} {c : Prop} [Decidable c] : e ∈ causes (Layout.requires c e') ↔ ¬ c ∧ e = e' := by
  by_cases h : c <;> simp [causes, Layout.requires, Item.cause, h]

theorem mem_causes_part {e : PyErr} {c : Prop} [Decidable c] {f : α → List Item} {o : Option α} :
    e ∈ causes (Layout.part c f o) ↔ c ∧ ∃ a, o = some a ∧ e ∈ causes (f a) := by
  unfold Layout.part
  by_cases h : c
  · rw [if_pos h]; cases o <;> simp [h, causes_nil]
  · rw [if_neg h]; simp [h, causes_nil]

theorem Plain.nil : Plain [] := fun _ h => (by cases h)
theorem Plain.append {a b : List Item} (h1 : Plain a) (h2 : Plain b) : Plain (a ++ b) := fun e h =>
  (mem_causes_append.1 h).elim (h1 e) (h2 e)
theorem Plain.fnil : Plain (List.flatten []) := Plain.nil
theorem Plain.cons {a : List Item} {l : List (List Item)} (h1 : Plain a) (h2 : Plain l.flatten) : Plain (a :: l).flatten := by
  rw [List.flatten_cons]; exact h1.append h2

/-- Everything but a `requires` item. -/
theorem Plain.item {i : Item} (h : ∀ p e, i ≠ .requires p e) : Plain [i] := by
  intro e he
  obtain ⟨j, hj, hc⟩ := mem_causes.1 he
  simp only [List.mem_singleton] at hj
  subst hj
  unfold PlainErr
  cases j with
  | int w s i => simp only [Item.cause] at hc; split at hc <;> simp_all
  | count w s n => simp only [Item.cause] at hc; split at hc <;> simp_all
  | float x => simp [Item.cause] at hc
  | text s => simp only [Item.cause] at hc; split at hc <;> (try split at hc) <;> simp_all
  | fixedText w s => simp only [Item.cause] at hc; split at hc <;> simp_all
  | slot b => simp [Item.cause] at hc
  | idle w => simp [Item.cause] at hc
  | packed c v =>
    cases v with
    | float x => cases c <;> simp only [Item.cause] at hc <;> (try split at hc) <;> simp_all
    | int i => cases c <;> simp only [Item.cause] at hc <;> (try split at hc) <;> (try split at hc) <;> simp_all
  | requires p e => exact absurd rfl (h p e)

theorem Plain.u8 (i : Int) : Plain (Layout.u8 i) := Plain.item (fun _ _ h => (by cases h))
theorem Plain.i16 (i : Int) : Plain (Layout.i16 i) := Plain.item (fun _ _ h => (by cases h))
theorem Plain.i32 (i : Int) : Plain (Layout.i32 i) := Plain.item (fun _ _ h => (by cases h))
theorem Plain.u32 (i : Int) : Plain (Layout.u32 i) := Plain.item (fun _ _ h => (by cases h))
theorem Plain.f32 (x : PyFloat) : Plain (Layout.f32 x) := Plain.item (fun _ _ h => (by cases h))
theorem Plain.text (s : PyStr) : Plain (Layout.text s) := Plain.item (fun _ _ h => (by cases h))
theorem Plain.countU8 (l : List α) : Plain (Layout.countU8 l) := Plain.item (fun _ _ h => (by cases h))
theorem Plain.countI16 (l : List α) : Plain (Layout.countI16 l) := Plain.item (fun _ _ h => (by cases h))
theorem Plain.countI32 (l : List α) : Plain (Layout.countI32 l) := Plain.item (fun _ _ h => (by cases h))
theorem Plain.countU32 (l : List α) : Plain (Layout.countU32 l) := Plain.item (fun _ _ h => (by cases h))
theorem Plain.each {f : α → List Item} (h : ∀ x, Plain (f x)) (l : List α) : Plain (Layout.each f l) := fun e he => by
  obtain ⟨x, -, hx⟩ := mem_causes_each.1 he
  exact h x e hx
theorem Plain.pointers (l : List (Option α)) : Plain (Layout.pointers l) := fun e he => by
  obtain ⟨i, hi, hc⟩ := List.mem_filterMap.1 he
  obtain ⟨o, -, rfl⟩ := List.mem_map.1 hi
  cases hc
theorem Plain.part {c : Prop} [Decidable c] {f : α → List Item} (h : ∀ x, Plain (f x)) (o : Option α) : Plain (Layout.part c f o) :=
  fun e he => by
    obtain ⟨-, a, -, ha⟩ := mem_causes_part.1 he
    exact h a e ha
theorem Plain.since {v : Version} {n : Nat} {its : List Item} (h : Plain its) : Plain (Layout.since v n its) := by
  unfold Layout.since; split
  · exact h
  · exact Plain.nil
theorem Plain.ite {c : Prop} [Decidable c] {a b : List Item} (h1 : Plain a) (h2 : Plain b) : Plain (if c then a else b) := by
  split
  · exact h1
  · exact h2
theorem Plain.zip : (cs : List Code) → (vs : List Val) → Plain (List.zipWith Item.packed cs vs)
  | [], _ => by rw [List.zipWith_nil_left]; exact Plain.nil
  | _ :: _, [] => Plain.nil
  | c :: cs, v :: vs => Plain.append (a := [Item.packed c v]) (Plain.item (fun _ _ h => (by cases h))) (Plain.zip cs vs)
theorem Plain.block (fmt : String) (vs : List Val) : Plain (Layout.block fmt vs) := by
  unfold Layout.block
  refine Plain.append (fun e he => ?_) (by split <;> first | exact Plain.nil | exact Plain.zip _ _)
  exact Or.inr (Or.inl (mem_causes_requires.1 he).2)

/-- Records of the class with layout `f` cause such exceptions only. -/
class PlainLayout (f : Version → α → List Item) : Prop where
  plain : ∀ v x, Plain (f v x)

theorem Plain.classI {f : Version → α → List Item} [h : PlainLayout f] {v : Version} (x : α) : Plain (f v x) := h.plain v x
theorem Plain.classesI {f : Version → α → List Item} [h : PlainLayout f] {v : Version} (l : List α) : Plain (Layout.each (f v) l) :=
  Plain.each (h.plain v) l
theorem Plain.classesOptI {f : Version → α → List Item} [h : PlainLayout f] {v : Version} (l : List (Option α)) :
    Plain (Layout.eachPresent (f v) l) := Plain.each (h.plain v) _
theorem Plain.partI {c : Prop} [Decidable c] {f : Version → α → List Item} [h : PlainLayout f] {v : Version} (o : Option α) :
    Plain (Layout.part c (f v) o) := Plain.part (h.plain v) o

macro "plain" : tactic => `(tactic| (
  repeat' (with_reducible first
    | exact Plain.fnil
    | apply Plain.cons
    | exact Plain.i16 _ | exact Plain.i32 _ | exact Plain.u8 _ | exact Plain.u32 _ | exact Plain.f32 _ | exact Plain.text _
    | exact Plain.each Plain.u8 _ | exact Plain.each Plain.i16 _ | exact Plain.each Plain.i32 _ | exact Plain.each Plain.f32 _
    | exact Plain.countU8 _ | exact Plain.countI16 _ | exact Plain.countI32 _ | exact Plain.countU32 _
    | exact Plain.pointers _
    | apply Plain.since | exact Plain.partI _ | exact Plain.part Plain.f32 _
    | exact Plain.classI _ | exact Plain.classesI _ | exact Plain.classesOptI _
    | exact Plain.block _ _ | apply Plain.ite | exact Plain.item (fun _ _ h => (by cases h)))))

end Genie
