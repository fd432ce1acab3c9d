import Verif.Py.Float
/-!
# Floats as numbers

The value of a finite floating-point bit pattern, as an exact integer multiple of `2^-1074` (the smallest
positive double).  `sign`, exponent and mantissa fields as in IEEE 754.
-/

namespace Genie

/-- The magnitude of a finite double (pattern `d`), in units of `2^-1074`. -/
def magnitude64 (d : Nat) : Nat :=
  if d / 2 ^ 52 % 2 ^ 11 = 0 then d % 2 ^ 52 else (2 ^ 52 + d % 2 ^ 52) * 2 ^ (d / 2 ^ 52 % 2 ^ 11 - 1)

/-- The magnitude of a finite single (pattern `w`), in units of `2^-1074`; the smallest positive single is
`2^-149 = 2^925 * 2^-1074`. -/
def magnitude32 (w : Nat) : Nat :=
  (if w / 2 ^ 23 % 2 ^ 8 = 0 then w % 2 ^ 23
   else (2 ^ 23 + w % 2 ^ 23) * 2 ^ (w / 2 ^ 23 % 2 ^ 8 - 1)) * 2 ^ 925

/-- The value of a finite double (pattern `d`), in units of `2^-1074`. -/
def value64 (d : Nat) : Int := if d / 2 ^ 63 = 0 then (magnitude64 d : Int) else -(magnitude64 d : Int)

/-- The value of a finite single (pattern `w`), in units of `2^-1074`. -/
def value32 (w : Nat) : Int := if w / 2 ^ 31 = 0 then (magnitude32 w : Int) else -(magnitude32 w : Int)

/-- The double `d` is a number (not an infinity or NaN). -/
def Finite64 (d : Nat) : Prop := d / 2 ^ 52 % 2 ^ 11 ≠ 2 ^ 11 - 1

/-- The single `w` is a number (not an infinity or NaN). -/
def Finite32 (w : Nat) : Prop := w / 2 ^ 23 % 2 ^ 8 ≠ 2 ^ 8 - 1

/-- The single `w` is a signalling NaN: all exponent bits set, quiet bit clear, mantissa not zero. -/
def SignallingNaN32 (w : Nat) : Prop :=
  w / 2 ^ 23 % 2 ^ 8 = 2 ^ 8 - 1 ∧ w % 2 ^ 23 ≠ 0 ∧ w % 2 ^ 23 < 2 ^ 22

instance (w : Nat) : Decidable (SignallingNaN32 w) := inferInstanceAs (Decidable (_ ∧ _))

/-- `w` is a single nearest to the number `x` (in units of `2^-1074`), and if another single is equally
near then `w` is the one with even mantissa. -/
def NearestEven (x : Int) (w : Nat) : Prop :=
  Finite32 w ∧ ∀ w', w' < 2 ^ 32 → Finite32 w' →
    (x - value32 w).natAbs ≤ (x - value32 w').natAbs ∧
    ((x - value32 w).natAbs = (x - value32 w').natAbs → value32 w ≠ value32 w' → w % 2 = 0)

/-- Half way between the largest single, `(2^24 - 1) * 2^104`, and `2^128`, in units of `2^-1074`: numbers
of at least this magnitude round to an infinity. -/
def overflowThreshold : Nat := (2 ^ 25 - 1) * 2 ^ 1177

/-- `d` is a double nearest to the number `x` (in units of `2^-1074`), and if another double is equally near then `d` is the one with even
mantissa. -/
def NearestEven64 (x : Int) (d : Nat) : Prop :=
  Finite64 d ∧ ∀ d', d' < 2 ^ 64 → Finite64 d' →
    (x - value64 d).natAbs ≤ (x - value64 d').natAbs ∧
    ((x - value64 d).natAbs = (x - value64 d').natAbs → value64 d ≠ value64 d' → d % 2 = 0)

/-- Half way between the largest double, `(2^53 - 1) * 2^971`, and `2^1024`: `float(i)` of an `int` of at least this magnitude raises
`OverflowError`. -/
def intTooLarge : Nat := (2 ^ 54 - 1) * 2 ^ 970

end Genie
