import Verif.Py.Float
/-!
# Field ranges

What values the fields of the format can hold, stated with plain arithmetic (no reference to the
readers and writers).
-/

namespace Genie

/-- unsigned 8-bit -/
def IsU8 (i : Int) : Prop := 0 ≤ i ∧ i ≤ 255
/-- signed 8-bit -/
def IsI8 (i : Int) : Prop := -128 ≤ i ∧ i ≤ 127
/-- unsigned 16-bit -/
def IsU16 (i : Int) : Prop := 0 ≤ i ∧ i ≤ 65535
/-- signed 16-bit -/
def IsI16 (i : Int) : Prop := -32768 ≤ i ∧ i ≤ 32767
/-- unsigned 32-bit -/
def IsU32 (i : Int) : Prop := 0 ≤ i ∧ i ≤ 4294967295
/-- signed 32-bit -/
def IsI32 (i : Int) : Prop := -2147483648 ≤ i ∧ i ≤ 2147483647

instance (i : Int) : Decidable (IsU8 i) := inferInstanceAs (Decidable (_ ∧ _))
instance (i : Int) : Decidable (IsI8 i) := inferInstanceAs (Decidable (_ ∧ _))
instance (i : Int) : Decidable (IsU16 i) := inferInstanceAs (Decidable (_ ∧ _))
instance (i : Int) : Decidable (IsI16 i) := inferInstanceAs (Decidable (_ ∧ _))
instance (i : Int) : Decidable (IsU32 i) := inferInstanceAs (Decidable (_ ∧ _))
instance (i : Int) : Decidable (IsI32 i) := inferInstanceAs (Decidable (_ ∧ _))

/-- A Python float (binary64 pattern `s:1 e:11 m:52`) that single precision represents exactly:
* zero;
* a normal single: exponent `-126 … 127` and only the 23 upper mantissa bits used;
* a subnormal single: exponent `-149 … -127` and a multiple of `2^-149`;
* an infinity, or a *quiet* NaN whose payload fits in 23 bits. -/
def IsF32 (x : PyFloat) : Prop :=
  let e := x.bits.toNat / 2 ^ 52 % 2048
  let m := x.bits.toNat % 2 ^ 52
  (e = 0 ∧ m = 0) ∨
  (897 ≤ e ∧ e ≤ 1150 ∧ m % 2 ^ 29 = 0) ∨
  (874 ≤ e ∧ e ≤ 896 ∧ m % 2 ^ (926 - e) = 0) ∨
  (e = 2047 ∧ m % 2 ^ 29 = 0 ∧ (m = 0 ∨ 2 ^ 51 ≤ m))

instance (x : PyFloat) : Decidable (IsF32 x) := by unfold IsF32; exact inferInstance

end Genie
