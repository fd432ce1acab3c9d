import Verif.Py.Basic
/-!
# Data whose text markers are repaired

Each text of the format is preceded by the bytes `60 0A`, which `assert` compares.  `Mended bs cs`: `cs` is `bs` in which some pairs of
bytes were replaced by `60 0A`.
-/

namespace Genie

inductive Mended : Bytes → Bytes → Prop where
  | nil : Mended [] []
  | keep (b : UInt8) {bs cs : Bytes} : Mended bs cs → Mended (b :: bs) (b :: cs)
  | marker (x y : UInt8) {bs cs : Bytes} : Mended bs cs → Mended (x :: y :: bs) (0x60 :: 0x0A :: cs)

end Genie
