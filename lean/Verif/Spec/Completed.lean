import Verif.Py.Basic
/-!
# Completing data that ends too early

What a reader makes of data that ends early is what it makes of completed data: zeros are added, after at most three bytes 255 if the
data ends with a byte of 128 or more (the sign of a signed integer that is cut).
-/

namespace Genie

/-- `full` is `cut`, completed. -/
def Completion (cut full : Bytes) : Prop :=
  ∃ k m, full = cut ++ List.replicate k 255 ++ List.replicate m 0 ∧ k ≤ 3 ∧ (0 < k → ∃ b, cut.getLast? = some b ∧ 128 ≤ b.toNat)

end Genie
