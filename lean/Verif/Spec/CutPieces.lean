import Verif.Spec.Pieces
/-!
# What is read where the data ends

The reader does not notice the end of the data, except at floats and struct-packed values: bytes that are not there are taken as
zeros, or as 255 if a signed integer is cut after a byte of 128 or more.  `TakenAs items rest n` says that the items are read at a
place where the data goes on with `rest` and then ends; `n` is the number of bytes that are read, there or not.
-/

namespace Genie

/-- Items that must be there completely. -/
def Item.strict : Item → Bool
  | .float _ => true
  | .packed _ _ => true
  | _ => false

/-- Items that are read as signed integers. -/
def Item.signed : Item → Bool
  | .int _ true _ => true
  | .count _ true _ => true
  | .slot _ => true
  | .idle _ => true
  | _ => false

/-- What is read in place of the bytes that are missing, if these are left. -/
def fillByte (signed : Bool) (rest : Bytes) : UInt8 :=
  match rest.getLast? with
  | some b => if signed && decide (128 ≤ b.toNat) then 255 else 0
  | none => 0

/-- The item is read as the bytes `c`: they are next, or they are the rest of the data, completed. -/
def Item.TakenFrom (it : Item) (rest c : Bytes) : Prop :=
  it.Accepts c ∧ (c <+: rest ∨ it.strict = false ∧ ∃ k, 0 < k ∧ c = rest ++ List.replicate k (fillByte it.signed rest))

/-- The items are read, one after the other, in `n` bytes. -/
def TakenAs : List Item → Bytes → Nat → Prop
  | [], _, n => n = 0
  | it :: its, rest, n => ∃ c m, it.TakenFrom rest c ∧ TakenAs its (rest.drop c.length) m ∧ n = c.length + m

end Genie
