import Verif.Proof.Records.WritesDat
import Verif.Spec.Checks
import Verif.Spec.Api
/-!
# Which exception a writer raises

`Fails w its`: the writer expression `w` raises the exception of the first of the items `its` that cannot be written, and
returns if there is none.
-/

namespace Genie

/-- See above. -/
def Fails (w : Py Bytes) (its : List Item) : Prop := errorOf w = (causes its).head?

theorem Writes.fails_single {w : Py Bytes} {i : Item} (h : Writes w [i]) : Fails w [i] := by
  unfold Fails
  cases hw : w with
  | ok b => rw [(h.ok b hw).1]; rfl
  | error e =>
    have := h.error e hw
    simp only [causes, List.filterMap_cons, List.filterMap_nil] at this ⊢
    cases hc : i.cause with
    | none => rw [hc] at this; cases this
    | some e' => rw [hc] at this; simp at this; subst this; rfl

theorem Writes.fails_never {w : Py Bytes} {its : List Item} (h : Writes w its) (hc : causes its = []) : Fails w its := by
  unfold Fails; rw [h.ok_of hc, hc]; rfl

theorem Fails.nil {b : Bytes} : Fails (.ok b) [] := rfl

theorem Fails.append {w : Py Bytes} {ws : List (Py Bytes)} {a b : List Item} (h1 : Fails w a) (h2 : Fails (joinB ws) b) :
    Fails (joinB (w :: ws)) (a ++ b) := by
  unfold Fails at *
  rw [causes_append, List.head?_append, ← h1, ← h2]
  cases w with
  | error e => rfl
  | ok b =>
    simp only [joinB]
    cases joinB ws <;> rfl

theorem Fails.okCons {b : Bytes} {ws : List (Py Bytes)} {its : List Item} (h : Fails (joinB ws) its) : Fails (joinB (.ok b :: ws)) its :=
  Fails.append (a := []) Fails.nil h

theorem Fails.cons {w : Py Bytes} {ws : List (Py Bytes)} {a : List Item} {l : List (List Item)} (h1 : Fails w a)
    (h2 : Fails (joinB ws) l.flatten) : Fails (joinB (w :: ws)) (a :: l).flatten := by
  rw [List.flatten_cons]; exact h1.append h2

theorem Fails.joinNil : Fails (joinB []) (List.flatten []) := Fails.nil

theorem Fails.each {w : α → Py Bytes} {f : α → List Item} (l : List α) (h : ∀ x ∈ l, Fails (w x) (f x)) :
    Fails (joinB (l.map w)) (Layout.each f l) := by
  induction l with
  | nil => exact Fails.nil
  | cons x l ih =>
    have := (h x List.mem_cons_self).append (ih fun y hy => h y (List.mem_cons_of_mem _ hy))
    simpa [Layout.each] using this

theorem Fails.requires {c : Prop} [Decidable c] {e : PyErr} {w : Py Bytes} {its : List Item} (h : Fails w its) :
    Fails (if c then w else .error e) (Layout.requires c e ++ its) := by
  by_cases hc : c
  · rw [if_pos hc]
    have h1 : causes (Layout.requires c e) = [] := by simp [causes, Layout.requires, Item.cause, hc]
    unfold Fails; rw [causes_append, h1]; exact h
  · rw [if_neg hc]
    have h1 : causes (Layout.requires c e) = [e] := by simp [causes, Layout.requires, Item.cause, hc]
    unfold Fails; rw [causes_append, h1]; rfl

theorem Fails.requires2 {a b : Prop} [Decidable a] [Decidable b] {e : PyErr} {w : Py Bytes} {its : List Item} (h : Fails w its) :
    Fails (if ¬ (a ∧ b) then .error e else w) (Layout.requires a e ++ (Layout.requires b e ++ its)) := by
  have : (if ¬ (a ∧ b) then (.error e : Py Bytes) else w) = if a then (if b then w else .error e) else .error e := by
    by_cases ha : a <;> by_cases hb : b <;> simp [ha, hb]
  rw [this]
  exact Fails.requires (Fails.requires h)

theorem Fails.packCodes : (cs : List Code) → (vs : List Val) →
    Fails (Genie.packCodes cs vs) (List.zipWith Item.packed cs vs)
  | [], _ => by cases ‹List Val› <;> exact Fails.nil
  | _ :: _, [] => Fails.nil
  | c :: cs, v :: vs => by
    have h : Genie.packCodes (c :: cs) (v :: vs) = joinB [packCode c v, Genie.packCodes cs vs] := by
      rw [show [packCode c v, Genie.packCodes cs vs] = packCode c v :: [Genie.packCodes cs vs] from rfl]
      conv => rhs; rw [joinB.eq_def]
      simp only [joinB_single]
      rfl
    rw [h, List.zipWith_cons_cons]
    exact (Writes.packed c v).fails_single.append (ws := [Genie.packCodes cs vs]) (b := List.zipWith Item.packed cs vs)
      (by rw [joinB_single]; exact Fails.packCodes cs vs)

theorem Fails.block {fmt : String} {fmt' : String} (vs : List Val) (hf : parseFmt fmt = some (Layout.codes fmt')) :
    Fails (structPack fmt vs) (Layout.block fmt' vs) := by
  unfold structPack Layout.block
  rw [hf]
  by_cases h : (Layout.codes fmt').length = vs.length
  · rw [if_pos h]
    exact Fails.requires (Fails.packCodes _ _)
  · dsimp only
    rw [if_neg h, if_neg h]
    have h1 : causes (Layout.requires ((Layout.codes fmt').length = vs.length) .structError ++ []) = [.structError] := by
      simp [causes, Layout.requires, Item.cause, h]
    unfold Fails; rw [h1]; rfl

theorem Fails.u8 (i : Int) : Fails (writeInt8 i) (Layout.u8 i) := (Writes.u8 _ ).fails_single
theorem Fails.i16 (i : Int) : Fails (writeInt16 i) (Layout.i16 i) := (Writes.i16 _ ).fails_single
theorem Fails.i32 (i : Int) : Fails (writeInt32 i) (Layout.i32 i) := (Writes.i32 _ ).fails_single
theorem Fails.u32 (i : Int) : Fails (writeInt32 i (signed := false)) (Layout.u32 i) := (Writes.u32 _).fails_single
theorem Fails.countU8 (l : List α) : Fails (writeInt8 l.length) (Layout.countU8 l) := (Writes.countU8 _ ).fails_single
theorem Fails.countI16 (l : List α) : Fails (writeInt16 l.length) (Layout.countI16 l) := (Writes.countI16 _ ).fails_single
theorem Fails.countI32 (l : List α) : Fails (writeInt32 l.length) (Layout.countI32 l) := (Writes.countI32 _ ).fails_single
theorem Fails.countU32 (l : List α) : Fails (writeInt32 l.length (signed := false)) (Layout.countU32 l) := (Writes.countU32 _).fails_single
theorem Fails.f32 (x : PyFloat) : Fails (writeFloat x) (Layout.f32 x) := (Writes.f32 _ ).fails_single
theorem Fails.text (s : PyStr) : Fails (writeDebugString s) (Layout.text s) := (Writes.text _ ).fails_single
theorem Fails.fixedText (n : Nat) (s : PyStr) : Fails (writeString n s) [.fixedText n s] := (Writes.fixedText _ _ ).fails_single
theorem Fails.idle2 : Fails (writeInt16 0) [.idle 2] := (Writes.idle2 ).fails_single
theorem Fails.u8s (l : List Int) : Fails (writeInt8Array l) (Layout.each Layout.u8 l) := Fails.each l fun _ _ => Fails.u8 _
theorem Fails.i16s (l : List Int) : Fails (writeInt16Array l) (Layout.each Layout.i16 l) := Fails.each l fun _ _ => Fails.i16 _
theorem Fails.i32s (l : List Int) : Fails (writeInt32Array l) (Layout.each Layout.i32 l) := Fails.each l fun _ _ => Fails.i32 _
theorem Fails.f32s (l : List PyFloat) : Fails (writeFloatArray l) (Layout.each Layout.f32 l) := Fails.each l fun _ _ => Fails.f32 _

theorem Fails.class_ {f : Version → α → Py Bytes} {l : α → List Item} {v : Version} {x : α} (h : Fails (f v x) (l x)) :
    Fails (writeClass f x v) (l x) := h

theorem Fails.classes {f : Version → α → Py Bytes} {g : α → List Item} {v : Version} (h : ∀ x, Fails (f v x) (g x)) (l : List α) :
    Fails (writeClassArray f l v) (Layout.each g l) := Fails.each l fun x _ => h x

theorem Fails.classesOpt {f : Version → α → Py Bytes} {g : α → List Item} {v : Version} (h : ∀ x, Fails (f v x) (g x))
    (l : List (Option α)) : Fails (writeClassArrayOpt f l v) (Layout.eachPresent g l) :=
  Fails.each _ fun x _ => h x

theorem Fails.part {c c' : Prop} [Decidable c] [Decidable c'] (hc : c ↔ c') {w : α → Py Bytes} {f : α → List Item}
    (h : ∀ x, Fails (w x) (f x)) (o : Option α) : Fails (writeIf c w o) (Layout.part c' f o) := by
  unfold writeIf Layout.part
  by_cases hh : c
  · rw [if_pos hh, if_pos (hc.1 hh)]
    cases o with
    | none => exact Fails.nil
    | some a => exact h a
  · rw [if_neg hh, if_neg (fun k => hh (hc.2 k))]; exact Fails.nil

theorem Fails.ite {c c' : Prop} [Decidable c] [Decidable c'] (hc : c ↔ c') {w w' : Py Bytes} {a b : List Item}
    (h1 : c → c' → Fails w a) (h2 : ¬ c → ¬ c' → Fails w' b) : Fails (if c then w else w') (if c' then a else b) := by
  by_cases hh : c
  · rw [if_pos hh, if_pos (hc.1 hh)]; exact h1 hh (hc.1 hh)
  · have : ¬ c' := fun k => hh (hc.2 k)
    rw [if_neg hh, if_neg this]; exact h2 hh this

theorem Fails.fail {e : PyErr} : Fails (.error e) (Layout.requires False e) := rfl

theorem Fails.since16 {l : List α} (v : Version) :
    Fails (writeInt16If l.length (v.ge .VER_78)) (Layout.since v 78 (Layout.countI16 l)) := by
  unfold writeInt16If Layout.since
  by_cases h : 78 ≤ v.num
  · rw [if_neg (by simp [(ge78_iff v).2 h]), if_pos h]; exact Fails.countI16 l
  · have : v.ge .VER_78 = false := by
      cases hv : v.ge .VER_78 with
      | false => rfl
      | true => exact absurd ((ge78_iff v).1 hv) h
    rw [if_pos (by simp [this]), if_neg h]; exact Fails.nil

theorem Fails.pointers {l : List (Option α)} {f : Option α → Int} (h0 : f none = 0) (h1 : ∀ a, f (some a) = 1) :
    Fails (writeInt32Array (l.map f)) (Layout.pointers l) := by
  refine (Writes.pointers h0 h1).fails_never ?_
  clear h0 h1
  induction l with
  | nil => rfl
  | cons o l ih =>
    show causes (Item.slot o.isSome :: Layout.pointers l) = []
    unfold causes at ih ⊢
    simp [List.filterMap_cons, ih, Item.cause]

/-- The class with writer `f` has checks `g`. -/
class HasChecks (f : Version → α → Py Bytes) (g : outParam (Version → α → List Item)) : Prop where
  fails : ∀ v x, Fails (f v x) (g v x)

theorem Fails.classI {f : Version → α → Py Bytes} {g : Version → α → List Item} [h : HasChecks f g] {v : Version} (x : α) :
    Fails (writeClass f x v) (g v x) := h.fails v x
theorem Fails.classesI {f : Version → α → Py Bytes} {g : Version → α → List Item} [h : HasChecks f g] {v : Version} (l : List α) :
    Fails (writeClassArray f l v) (Layout.each (g v) l) := Fails.classes (h.fails v) l
theorem Fails.classesOptI {f : Version → α → Py Bytes} {g : Version → α → List Item} [h : HasChecks f g] {v : Version}
    (l : List (Option α)) : Fails (writeClassArrayOpt f l v) (Layout.eachPresent (g v) l) := Fails.classesOpt (h.fails v) l

theorem Fails.bindPart {w : Py Bytes} {k : Bytes → Py Bytes} {l its : List Item} (h1 : Fails w l)
    (hk : ∀ s, w = .ok s → Fails (k s) its) : Fails (w >>= k) (l ++ its) := by
  unfold Fails at *
  rw [causes_append, List.head?_append, ← h1]
  cases hw : w with
  | ok s =>
    show errorOf (k s) = _
    exact hk s hw
  | error e => rfl

/-- Proves `Fails (joinB [w₁, …]) (List.flatten [l₁, …])` piece by piece. -/
macro "fails" : tactic => `(tactic| (
  repeat' (with_reducible first
    | exact Fails.joinNil
    | refine Fails.cons ?_ ?_
    | exact Fails.i16 _ | exact Fails.i32 _ | exact Fails.u8 _ | exact Fails.u32 _ | exact Fails.f32 _ | exact Fails.text _
    | exact Fails.u8s _ | exact Fails.i16s _ | exact Fails.i32s _ | exact Fails.f32s _
    | exact Fails.countU8 _ | exact Fails.countI16 _ | exact Fails.countI32 _ | exact Fails.countU32 _
    | exact Fails.classI _ | exact Fails.classesI _ | exact Fails.classesOptI _
    | exact Fails.since16 _ | exact Fails.fixedText _ _
    | refine Fails.block _ ?_)
  all_goals try (show parseFmt _ = some _; decide +kernel)))

end Genie
