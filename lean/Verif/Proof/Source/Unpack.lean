import Verif.Proof.Source.ClassArrays
/-!
# `x, y, … = struct.unpack(FORMAT, content.consume_range(LENGTH))`
-/

namespace Genie.Src

theorem unpackFrom_eq (fmt : String) (n : Nat) (k : List Val → HReader α) :
    (HReader.lift (unpackFrom fmt n) >>= k) = (HReader.lift (consumeRange n) >>= fun c =>
      HReader.lift (noteLossy (codesHaveSNaN ((parseFmt fmt).getD []) c)) >>= fun _ =>
      HReader.lift (liftPy (structUnpack fmt c)) >>= k) := by
  unfold unpackFrom
  rw [lift_bind, bind_assoc']
  rfl

/-- The values have the types that the codes say. -/
inductive Typed : List Code → List Val → Prop
  | nil : Typed [] []
  | float {cs vs} (x : PyFloat) : Typed cs vs → Typed (.f :: cs) (.float x :: vs)
  | int {c cs vs} (i : Int) : c ≠ .f → Typed cs vs → Typed (c :: cs) (.int i :: vs)

theorem Typed.unpackCodes : ∀ (cs : List Code) (b : Bytes), Typed cs (unpackCodes cs b)
  | [], _ => .nil
  | c :: cs, b => by
    cases c
    · exact .int _ (by decide) (Typed.unpackCodes _ _)
    · exact .int _ (by decide) (Typed.unpackCodes _ _)
    · exact .int _ (by decide) (Typed.unpackCodes _ _)
    · exact .float _ (Typed.unpackCodes _ _)

/-- `struct.unpack(fmt, b)`. -/
theorem Same.structUnpack (fmt : String) (hf : fmt ≠ "f") (b : Bytes) :
    Same (fun vs : List Val => PVal.seq (vs.map ofVal)) (structUnpackM fmt b) (HReader.lift (liftPy (structUnpack fmt b))) := by
  have : structUnpackM fmt b = Src.andThen (pyM (Genie.structUnpack fmt b)) fun vs => Src.done (.seq (vs.map ofVal)) := by
    unfold structUnpackM
    split
    · exact absurd rfl hf
    · rfl
  rw [this]
  exact (Same.py _).tail _

theorem Typed.of_unpack {fmt : String} {cs : List Code} (hc : parseFmt fmt = some cs) {b : Bytes} {H t vs H' t'}
    (h : HReader.lift (liftPy (structUnpack fmt b)) H t = .ok (vs, H', t')) : Typed cs vs := by
  unfold structUnpack at h
  rw [hc] at h
  dsimp only at h
  split at h
  · cases h
    exact Typed.unpackCodes cs b
  · cases h

theorem Same.popInt {φ : α → β} {c : Code} {cs : List Code} {x : Name} {xs : List Name} {vs : List Val} {ρ : Env} {k : Env → M β}
    {k' : Int → List Val → HReader α} (ht : Typed (c :: cs) vs) (hc : c ≠ .f)
    (h : ∀ i vs, Typed cs vs → Same φ (setK x (.h (.int i)) ρ fun ρ' => unpackK xs (vs.map ofVal) ρ' k) (k' i vs)) :
    Same φ (unpackK (x :: xs) (vs.map ofVal) ρ k) (HReader.popInt vs k') := by
  cases ht with
  | float _ _ => exact absurd rfl hc
  | int i _ ht => exact h i _ ht

theorem Same.popFloat {φ : α → β} {cs : List Code} {x : Name} {xs : List Name} {vs : List Val} {ρ : Env} {k : Env → M β}
    {k' : PyFloat → List Val → HReader α} (ht : Typed (.f :: cs) vs)
    (h : ∀ i vs, Typed cs vs → Same φ (setK x (.h (.float i)) ρ fun ρ' => unpackK xs (vs.map ofVal) ρ' k) (k' i vs)) :
    Same φ (unpackK (x :: xs) (vs.map ofVal) ρ k) (HReader.popFloat vs k') := by
  cases ht with
  | float i ht => exact h i _ ht
  | int i hc ht => exact absurd rfl hc

theorem Same.popDone {φ : α → β} {vs : List Val} {ρ : Env} {k : Env → M β} {k' : HReader α} (ht : Typed [] vs) (h : Same φ (k ρ) k') :
    Same φ (unpackK [] (vs.map ofVal) ρ k) (HReader.popDone vs k') := by
  cases ht
  exact h

/-- The next variable of a tuple of targets is an `int`. -/
macro "pop_int" : tactic => `(tactic| (refine Same.popInt (by assumption) (by decide) fun _ _ _ => ?_; peel))
/-- The next variable of a tuple of targets is a `float`. -/
macro "pop_float" : tactic => `(tactic| (refine Same.popFloat (by assumption) fun _ _ _ => ?_; peel))
/-- No more targets. -/
macro "pop_done" : tactic => `(tactic| (refine Same.popDone (by assumption) ?_; peel))
/-- `… = struct.unpack(FORMAT, content.consume_range(LENGTH))`. -/
macro "unpack_fun" : tactic => `(tactic| (
  rw [unpackFrom_eq]
  refine Same.bind (consume_range (by omega) _) fun _ => ?_
  refine Same.ghost ?_
  peel
  refine Same.bindP (Same.structUnpack _ (by decide) _) (fun _ _ _ _ _ h => Typed.of_unpack rfl h) fun _ _ => ?_
  peel))

end Genie.Src
