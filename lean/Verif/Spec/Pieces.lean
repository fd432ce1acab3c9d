import Verif.Spec.Layout
/-!
# Which bytes are read as an item

The reader accepts more than what the writer writes.  Item by item, this file lists everything that is accepted: the bytes
that would be written, and five oddities.
-/

namespace Genie

/-- Bytes that are read as the item although they are not the bytes written for it. -/
def Item.Odd : Item → Bytes → Prop
  /- a negative count: the list is empty, and 0 is written -/
  | .count w true 0, bs => bs.length = w ∧ 256 ^ w ≤ 2 * leNat bs
  /- a signalling NaN: the quiet one is written -/
  | .float x, bs => bs.length = 4 ∧ SignallingNaN32 (leNat bs) ∧ x = floatOfBytes bs
  | .packed .f (.float x), bs => bs.length = 4 ∧ SignallingNaN32 (leNat bs) ∧ x = floatOfBytes bs
  /- a text that ends with NULs: they are dropped -/
  | .text s, bs => ∃ k, 0 < k ∧ utf8Len s + k ≤ 65535 ∧
      bs = natLE 2 0x0A60 ++ natLE 2 (utf8Len s + k) ++ Item.utf8 s ++ List.replicate k 0
  /- a filled slot whose pointer is not 1: 1 is written -/
  | .slot true, bs => bs.length = 4 ∧ leNat bs ≠ 0 ∧ leNat bs ≠ 1
  /- bytes without meaning that are not zero: zeros are written -/
  | .idle w, bs => bs.length = w ∧ leNat bs ≠ 0
  | _, _ => False

/-- The bytes are read as the item. -/
def Item.Accepts (it : Item) (bs : Bytes) : Prop := bs = it.bytes ∨ it.Odd bs

/-- The chunks are read as the items, one after the other. -/
def Pieces : List Item → List Bytes → Prop
  | [], [] => True
  | it :: its, c :: cs => it.Accepts c ∧ Pieces its cs
  | _, _ => False

/-- The bytes can be cut into chunks that are read as the items. -/
def ReadAs (its : List Item) (bs : Bytes) : Prop := ∃ cs, Pieces its cs ∧ cs.flatten = bs

end Genie
