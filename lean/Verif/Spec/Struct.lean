import Verif.Py.Struct
import Verif.Spec.Ranges
/-! # Values that fit a `struct` format -/

namespace Genie

/-- The value fits the format character. -/
def Fits : Code → Val → Prop
  | .b, .int i => IsI8 i
  | .h, .int i => IsI16 i
  | .l, .int i => IsI32 i
  | .f, .float x => IsF32 x
  | _, _ => False

/-- The values fit the format characters, one for one. -/
def Matches : List Code → List Val → Prop
  | [], [] => True
  | c :: cs, v :: vs => Fits c v ∧ Matches cs vs
  | _, _ => False

end Genie
