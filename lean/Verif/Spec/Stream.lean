import Verif.Model.Common
/-!
# Data that arrives bit by bit
-/

namespace Genie

/-- The first `m` bytes of an infinite sequence of bytes. -/
def arrived (s : Nat → UInt8) (m : Nat) : Bytes := (List.range m).map s

end Genie
