import Verif.Spec.Objects
import Verif.Spec.Floats
/-!
# Objects that are equal

What `a == b` should mean, place by place: the same kind of object at every place, the same class, the same length, the same number, the
same text.
-/

namespace Genie

/-- The float is not a number. -/
def NaN (x : PyFloat) : Prop := x.bits.toNat / 2 ^ 52 % 2 ^ 11 = 2 ^ 11 - 1 ∧ x.bits.toNat % 2 ^ 52 ≠ 0

/-- The floats are equal as numbers, or the same infinity. -/
def EqualFloats (x y : PyFloat) : Prop :=
  (Finite64 x.bits.toNat ∧ Finite64 y.bits.toNat ∧ value64 x.bits.toNat = value64 y.bits.toNat) ∨ (¬ NaN x ∧ x = y)

/-- The float is the number `i`. -/
def EqualsInt (i : Int) (x : PyFloat) : Prop := Finite64 x.bits.toNat ∧ value64 x.bits.toNat = i * 2 ^ 1074

/-- The same, without looking inside: numbers by value, texts, and the kind, length and class of everything else. -/
def SameHead : ObjTree → ObjTree → Prop
  | .none, .none => True
  | .int i, .int j => i = j
  | .int i, .float x => EqualsInt i x
  | .float x, .int i => EqualsInt i x
  | .float x, .float y => EqualFloats x y
  | .str s, .str t => s = t
  | .list ts, .list us => ts.length = us.length
  | .tuple ts, .tuple us => ts.length = us.length
  | .obj c _, .obj d _ => c = d
  | _, _ => False

/-- There is nothing at the place in either, or the same in both. -/
def Agree : Option ObjTree → Option ObjTree → Prop
  | none, none => True
  | some x, some y => SameHead x y
  | _, _ => False

/-- Equal: at every place the same. -/
def Equal (t u : ObjTree) : Prop := ∀ p, Agree (t.get p) (u.get p)

/-- There is no NaN at any place. -/
def NaNFree (t : ObjTree) : Prop := ∀ p x, t.get p = some (.float x) → ¬ NaN x

/-- There is no negative zero at any place. -/
def NoNegativeZero (t : ObjTree) : Prop := ∀ p, t.get p ≠ some (.float ⟨0x8000000000000000⟩)

end Genie
