import Verif.Spec.TypedScripts
import Verif.Proof.Heap.CopyTypes
import Verif.Proof.Heap.Spread
import Verif.Proof.Heap.Twin
/-!
# Objects with types

Every object has one type, by its address; objects may be shared.
-/

namespace Genie
open HReader ObjTree

variable {D : PyStr → List (PyStr × Ann) → Prop}

/-- More objects have a type. -/
def Extends (f g : Nat → Option Ann) : Prop := ∀ b a, f b = some a → g b = some a

theorem HVal.Suits.mono {f g : Nat → Option Ann} (h : Extends f g) {a : Ann} {v : HVal} (k : v.Suits f a) : v.Suits g a := by
  induction k with
  | int => exact .int _
  | float => exact .float _
  | promote h => exact .promote h
  | str => exact .str _
  | none => exact .none
  | some _ ih => exact .some ih
  | ref e => exact .ref (h _ _ e)

theorem HVal.SuitsAll.mono {f g : Nat → Option Ann} (h : Extends f g) {as : List Ann} {vs : List HVal} (k : HVal.SuitsAll f as vs) : HVal.SuitsAll g as vs := by
  induction k with
  | nil => exact .nil
  | cons k _ ih => exact .cons (k.mono h) ih

theorem Cell.Suits.mono {f g : Nat → Option Ann} (h : Extends f g) {a : Ann} {c : Cell} (k : c.Suits D f a) : c.Suits D g a := by
  cases k with
  | list k => exact .list fun v hv => (k v hv).mono h
  | tuple k => exact .tuple (k.mono h)
  | cls d n k => exact .cls d n (k.mono h)

theorem Cell.Suits.stripped {f : Nat → Option Ann} {a : Ann} {c : Cell} (k : c.Suits D f a) : a.strip = a := by
  cases k <;> rfl

theorem HVal.SuitsAll.length {f : Nat → Option Ann} {as : List Ann} {vs : List HVal} (k : HVal.SuitsAll f as vs) : as.length = vs.length := by
  induction k with
  | nil => rfl
  | cons _ _ ih => simp [ih]

theorem HVal.SuitsAll.item {f : Nat → Option Ann} {as : List Ann} {vs : List HVal} (k : HVal.SuitsAll f as vs) : ∀ {m : Nat} {a : Ann} {v : HVal},
    as[m]? = some a → vs[m]? = some v → v.Suits f a := by
  induction k with
  | nil => intro m a v h; simp at h
  | cons k _ ih =>
    intro m a v ha hv
    cases m with
    | zero => cases ha; cases hv; exact k
    | succ m => exact ih (by simpa using ha) (by simpa using hv)

theorem HVal.SuitsAll.of {f : Nat → Option Ann} : ∀ {as : List Ann} {vs : List HVal}, as.length = vs.length →
    (∀ (m : Nat) (a : Ann) (v : HVal), as[m]? = some a → vs[m]? = some v → v.Suits f a) → HVal.SuitsAll f as vs
  | [], [], _, _ => .nil
  | [], _ :: _, h, _ => by simp at h
  | _ :: _, [], h, _ => by simp at h
  | a :: as, v :: vs, h, k => .cons (k 0 a v rfl rfl) (HVal.SuitsAll.of (by simpa using h) fun m a' v' ha hv => k (m + 1) a' v' (by simpa using ha) (by simpa using hv))

/-- An attribute. -/
theorem attr_suits {f : Nat → Option Ann} {n : PyStr} {a : Ann} : ∀ {fs : List (PyStr × Ann)} {vs : List (PyStr × HVal)},
    vs.map (·.1) = fs.map (·.1) → HVal.SuitsAll f (fs.map (·.2)) (vs.map (·.2)) → annOf n fs = some a → ∃ v, lookup n vs = some v ∧ v.Suits f a
  | [], _, _, _, h => nomatch h
  | (m, b) :: fs, [], e, _, _ => by simp at e
  | (m, b) :: fs, (m', w) :: vs, e, k, h => by
    simp only [List.map_cons, List.cons.injEq] at e k
    obtain ⟨rfl, e⟩ := e
    cases k with
    | cons k ks =>
      unfold annOf at h
      unfold lookup
      split at h
      · rename_i hm; cases h; rw [if_pos hm]; exact ⟨w, rfl, k⟩
      · rename_i hm; rw [if_neg hm]; exact attr_suits e ks h

theorem assign_suits {f : Nat → Option Ann} {n : PyStr} {a : Ann} {u : HVal} (hu : u.Suits f a) : ∀ {fs : List (PyStr × Ann)} {vs : List (PyStr × HVal)},
    vs.map (·.1) = fs.map (·.1) → HVal.SuitsAll f (fs.map (·.2)) (vs.map (·.2)) → annOf n fs = some a →
    (assign n u vs).map (·.1) = fs.map (·.1) ∧ HVal.SuitsAll f (fs.map (·.2)) ((assign n u vs).map (·.2))
  | [], _, _, _, h => nomatch h
  | (m, b) :: fs, [], e, _, _ => by simp at e
  | (m, b) :: fs, (m', w) :: vs, e, k, h => by
    simp only [List.map_cons, List.cons.injEq] at e k
    obtain ⟨rfl, e⟩ := e
    cases k with
    | cons k ks =>
      unfold annOf at h
      unfold assign
      split at h
      · rename_i hm; cases h; rw [if_pos hm]; exact ⟨by simp [e], .cons hu ks⟩
      · rename_i hm
        rw [if_neg hm]
        obtain ⟨h1, h2⟩ := assign_suits hu e ks h
        exact ⟨by simp [h1], .cons k h2⟩

/-! ## the heap -/

theorem Heap.Typed.bound {H : Heap} {f : Nat → Option Ann} (h : H.Typed D f) {b : Nat} {a : Ann} (e : f b = some a) : b < H.length := by
  obtain ⟨c, hc, _⟩ := h b a e
  exact (List.getElem?_eq_some_iff.1 hc).1

theorem Heap.Typed.set {H : Heap} {f : Nat → Option Ann} (h : H.Typed D f) {b : Nat} {a : Ann} {c : Cell} (e : f b = some a) (hc : c.Suits D f a) :
    Heap.Typed D (H.set b c) f := by
  intro b' a' e'
  by_cases hb : b = b'
  · subst hb
    rw [e] at e'
    cases e'
    exact ⟨c, by rw [List.getElem?_set_self (h.bound e)], hc⟩
  · obtain ⟨c', h1, h2⟩ := h b' a' e'
    exact ⟨c', by rw [List.getElem?_set_ne hb]; exact h1, h2⟩

/-- The types with one more object. -/
def withType (f : Nat → Option Ann) (b : Nat) (a : Ann) : Nat → Option Ann := fun b' => if b' = b then some a else f b'

theorem withType_extends {f : Nat → Option Ann} {b : Nat} {a : Ann} (h : f b = Option.none) : Extends f (withType f b a) := by
  intro b' a' e
  unfold withType
  rw [if_neg]
  · exact e
  · intro e'; rw [e', h] at e; cases e

theorem Heap.Typed.fresh {H : Heap} {f : Nat → Option Ann} (h : H.Typed D f) {b : Nat} (hb : H.length ≤ b) : f b = Option.none := by
  cases e : f b with
  | none => rfl
  | some a => have := h.bound e; omega

theorem Heap.Typed.alloc {H : Heap} {f : Nat → Option Ann} (h : H.Typed D f) {a : Ann} {c : Cell} (hc : c.Suits D f a) :
    Heap.Typed D (H ++ [c]) (withType f H.length a) := by
  have hx := withType_extends (a := a) (h.fresh (Nat.le_refl _))
  intro b a' e
  unfold withType at e
  split at e
  · rename_i hb
    cases e
    subst hb
    exact ⟨c, by simp, hc.mono hx⟩
  · obtain ⟨c', h1, h2⟩ := h b a' e
    exact ⟨c', by rw [List.getElem?_append_left (List.getElem?_eq_some_iff.1 h1).1]; exact h1, h2.mono hx⟩

/-! ## what a script sees, and hands over -/

theorem suits_ref_type {H : Heap} {f : Nat → Option Ann} (h : H.Typed D f) {b : Nat} : ∀ {a : Ann}, HVal.Suits f a (.ref b) → f b = some a.strip := by
  intro a k
  generalize e : HVal.ref b = v at k
  induction k with
  | ref hb =>
    cases e
    obtain ⟨c, _, hc⟩ := h _ _ hb
    rw [hc.stripped]
    exact hb
  | some _ ih => exact ih e
  | _ => cases e

/-- What is handed to a script. -/
theorem Memory.hand_typed {H : Heap} {names : List HVal} {f : Nat → Option Ann} (h : H.Typed D f) {types : List Ann} (hN : NamesTyped f names types)
    {v : HVal} {ρ : Ann} (hv : v.Suits f ρ) :
    (Memory.hand H names v).1.Suits types.length ρ ∧ (Memory.hand H names v).2.heap = H ∧
      NamesTyped f (Memory.hand H names v).2.names (extend types ρ (Memory.hand H names v).1) := by
  obtain ⟨hl, hn⟩ := id hN
  have same := hN
  constructor
  · rw [hl]
    induction hv with
    | int => exact .int _
    | float => exact .float _
    | promote h => exact .promote h
    | str => exact .str _
    | none => exact .none
    | some _ ih => exact .some ih
    | ref hb =>
      obtain ⟨c, hc, hs⟩ := h _ _ hb
      unfold Memory.hand
      dsimp only
      rw [hc]
      cases hs with
      | list => exact .list
      | tuple => exact .tuple
      | cls => exact .cls
  · cases v with
    | none => exact ⟨rfl, same⟩
    | int => exact ⟨rfl, same⟩
    | float => exact ⟨rfl, same⟩
    | str => exact ⟨rfl, same⟩
    | ref b =>
      have hb := suits_ref_type h hv
      refine ⟨rfl, by simp [Memory.hand, extend, hl], fun k a hk => ?_⟩
      simp only [Memory.hand, extend] at hk ⊢
      by_cases hlt : k < types.length
      · rw [List.getElem?_append_left hlt] at hk
        rw [List.getElem?_append_left (by rw [← hl]; exact hlt)]
        exact hn k a hk
      · rw [List.getElem?_append_right (by omega)] at hk
        have h0 : k - types.length = 0 := by
          have := (List.getElem?_eq_some_iff.1 hk).1
          simp at this
          omega
        rw [h0] at hk
        cases hk
        have : k = names.length := by omega
        subst this
        exact ⟨b, by simp, hb⟩

/-- The names of a script whose objects keep their types. -/
theorem NamesTyped.extends {f g : Nat → Option Ann} {names : List HVal} {types : List Ann} (h : NamesTyped f names types) (k : Extends f g) : NamesTyped g names types :=
  ⟨h.1, fun i a hi => by obtain ⟨b, b1, b2⟩ := h.2 i a hi; exact ⟨b, b1, k _ _ b2⟩⟩

theorem arg_suits_value {types : List Ann} {names : List HVal} {f : Nat → Option Ann}
    (hn : ∀ (k : Nat) (a : Ann), types[k]? = some a → ∃ b, names[k]? = some (.ref b) ∧ f b = some a) {v : Arg} {a : Ann} (k : v.Suits types a) :
    (v.value names).Suits f a := by
  induction k with
  | int => exact .int _
  | float => exact .float _
  | promote h => exact .promote h
  | str => exact .str _
  | none => exact .none
  | some _ ih => exact .some ih
  | object h =>
    obtain ⟨b, h1, h2⟩ := hn _ _ h
    unfold Arg.value named
    dsimp only
    rw [h1]
    exact .ref h2

theorem arg_suits_values {types : List Ann} {names : List HVal} {f : Nat → Option Ann}
    (hn : ∀ (k : Nat) (a : Ann), types[k]? = some a → ∃ b, names[k]? = some (.ref b) ∧ f b = some a) {vs : List Arg} {as : List Ann}
    (k : Arg.SuitsAll types as vs) : HVal.SuitsAll f as (vs.map (Arg.value names)) := by
  induction k with
  | nil => exact .nil
  | cons k _ ih => exact .cons (arg_suits_value hn k) ih

end Genie
