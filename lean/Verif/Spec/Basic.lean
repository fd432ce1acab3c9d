import Verif.Spec.Ranges
import Verif.Spec.Strings
import Verif.Model.Versions
/-!
# Small vocabulary of the well-formedness specifications
-/

namespace Genie

/-- Every element of the list satisfies `p`. -/
def AllOf (p : α → Prop) (l : List α) : Prop := ∀ x ∈ l, p x

instance (p : α → Prop) [DecidablePred p] (l : List α) : Decidable (AllOf p l) :=
  inferInstanceAs (Decidable (∀ x ∈ l, p x))

/-- A list of at most `n` elements, all satisfying `p` (its length is stored in a count field whose
largest value is `n`). -/
def UpTo (n : Nat) (p : α → Prop) (l : List α) : Prop := l.length ≤ n ∧ AllOf p l

/-- A list of exactly `n` elements, all satisfying `p`. -/
def Exactly (n : Nat) (p : α → Prop) (l : List α) : Prop := l.length = n ∧ AllOf p l

instance (n : Nat) (p : α → Prop) [DecidablePred p] (l : List α) : Decidable (UpTo n p l) :=
  inferInstanceAs (Decidable (_ ∧ _))
instance (n : Nat) (p : α → Prop) [DecidablePred p] (l : List α) : Decidable (Exactly n p l) :=
  inferInstanceAs (Decidable (_ ∧ _))

/-- If the value is present, it satisfies `p`. -/
def IfSome (p : α → Prop) (o : Option α) : Prop := ∀ a, o = some a → p a

/-- A version as a number: 71 for `VER 7.1` … 88 for `VER 8.8`; 0 for `UNDEFINED`. -/
def Version.num : Version → Nat
  | .UNDEFINED => 0
  | .VER_71 => 71 | .VER_72 => 72 | .VER_73 => 73 | .VER_74 => 74 | .VER_75 => 75 | .VER_76 => 76
  | .VER_77 => 77 | .VER_78 => 78 | .VER_84 => 84 | .VER_88 => 88

/-- A part of a record that exists in the file since version `n`: from that version on it satisfies
`stored`; in older versions the file has no room for it and `default_` holds instead. -/
def Since (v : Version) (n : Nat) (stored default_ : Prop) : Prop :=
  if n ≤ v.num then stored else default_

instance (v : Version) (n : Nat) (p q : Prop) [Decidable p] [Decidable q] : Decidable (Since v n p q) :=
  by unfold Since; exact inferInstance

/-- An optional part that is present exactly under condition `c`, and then satisfies `p`. -/
def PresentIff (c : Prop) (p : α → Prop) (o : Option α) : Prop := (c ↔ o.isSome = true) ∧ IfSome p o

end Genie
