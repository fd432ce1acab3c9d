import Verif.Py.Utf8
/-!
# Strings the format can hold
-/

namespace Genie

/-- A Unicode scalar value (a code point that is not a surrogate). -/
def IsScalar (c : Nat) : Prop := c ≤ 0xD7FF ∨ (0xE000 ≤ c ∧ c ≤ 0x10FFFF)

instance (c : Nat) : Decidable (IsScalar c) := inferInstanceAs (Decidable (_ ∨ _))

/-- Number of bytes of the UTF-8 encoding of a string. -/
def utf8Len (s : PyStr) : Nat :=
  (s.map fun c => if c ≤ 0x7F then 1 else if c ≤ 0x7FF then 2 else if c ≤ 0xFFFF then 3 else 4).sum

/-- A string that does not end with a NUL character. -/
def NoTrailingNul (s : PyStr) : Prop := s.getLast? ≠ some 0

instance (s : PyStr) : Decidable (NoTrailingNul s) := inferInstanceAs (Decidable (_ ≠ _))

/-- A string that fits in a debug-string field. -/
def IsDebugStr (s : PyStr) : Prop :=
  (∀ c ∈ s, IsScalar c) ∧ NoTrailingNul s ∧ utf8Len s ≤ 65535

instance (s : PyStr) : Decidable (IsDebugStr s) := inferInstanceAs (Decidable (_ ∧ _))

end Genie
