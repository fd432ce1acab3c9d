import Verif.Py.Struct
import Verif.Spec.Basic
import Verif.Spec.Floats
/-!
# Elementary pieces of a file

A record of the file format is a sequence of *items*: integers, element counts, floats, texts.  This file says, for each
kind of item, how many bytes it takes, which bytes, and what can make it impossible to write.  `Verif/Spec/Layout.lean`
says which items each record consists of, in which order.
-/

namespace Genie

/-- The integer fits in `width` bytes. -/
def FitsInt (width : Nat) (signed : Bool) (i : Int) : Prop :=
  if signed then -(256 : Int) ^ width ≤ 2 * i ∧ 2 * i < (256 : Int) ^ width else 0 ≤ i ∧ i < (256 : Int) ^ width

instance (w : Nat) (s : Bool) (i : Int) : Decidable (FitsInt w s i) := by unfold FitsInt; exact inferInstance

/-- Narrowing the double to single precision overflows. -/
def TooLarge (x : PyFloat) : Prop := Finite64 x.bits.toNat ∧ overflowThreshold ≤ (value64 x.bits.toNat).natAbs

instance (x : PyFloat) : Decidable (TooLarge x) := by unfold TooLarge Finite64; exact inferInstance

/-- An elementary piece of a record. -/
inductive Item where
  /-- an integer field -/
  | int (width : Nat) (signed : Bool) (value : Int)
  /-- the number of elements of a list -/
  | count (width : Nat) (signed : Bool) (length : Nat)
  /-- a single-precision float -/
  | float (x : PyFloat)
  /-- a text with its byte length in front (debug string) -/
  | text (s : PyStr)
  /-- a text in a fixed number of bytes, filled up with NULs -/
  | fixedText (width : Nat) (s : PyStr)
  /-- the pointer of a slot of a list with empty slots: 1 if it is filled, 0 if it is empty -/
  | slot (filled : Bool)
  /-- bytes without meaning: they are skipped when reading and written as zeros -/
  | idle (width : Nat)
  /-- an element of a struct-packed block -/
  | packed (c : Code) (v : Val)
  /-- nothing in the file, but a condition for writing the record, and the exception raised if it does not hold -/
  | requires (p : Bool) (e : PyErr)

namespace Item

/-- The number of bytes. -/
def size : Item → Nat
  | int w _ _ => w
  | count w _ _ => w
  | float _ => 4
  | text s => 4 + utf8Len s
  | fixedText w s => if w = 0 then utf8Len s + 1 else max w (utf8Len s)
  | slot _ => 4
  | idle w => w
  | packed c _ => c.size
  | requires _ _ => 0

/-- Why the item cannot be written: the exception raised. -/
def cause : Item → Option PyErr
  | int w s i => if FitsInt w s i then none else some .overflowError
  | count w s n => if FitsInt w s n then none else some .overflowError
  | float _ => none
  | text s =>
    if ∀ c ∈ s, IsScalar c then (if utf8Len s ≤ 65535 then none else some .overflowError) else some .unicodeEncodeError
  | fixedText _ s => if ∀ c ∈ s, IsScalar c then none else some .unicodeEncodeError
  | slot _ => none
  | idle _ => none
  | packed .f (.float x) => if TooLarge x then some .overflowError else none
  | packed .f (.int i) =>
    match F.ofInt i with
    | none => some .structError
    | some d => if TooLarge ⟨BitVec.ofNat 64 d⟩ then some .overflowError else none
  | packed _ (.float _) => some .structError
  | packed c (.int i) => if FitsInt c.size true i then none else some .structError
  | requires p e => if p then none else some e

/-- The UTF-8 bytes of a text. -/
def utf8 (s : PyStr) : Bytes := s.flatMap encodeCP

/-- The bytes (of an item that can be written). -/
def bytes : Item → Bytes
  | int w _ i => natLE w (i % (256 : Int) ^ w).toNat
  | count w _ n => natLE w n
  | float x => bytesOfFloat x
  | text s => natLE 2 0x0A60 ++ natLE 2 (utf8Len s) ++ utf8 s
  | fixedText w s => utf8 s ++ List.replicate ((if w = 0 then utf8Len s + 1 else w) - utf8Len s) 0
  | slot b => natLE 4 (if b then 1 else 0)
  | idle w => List.replicate w 0
  | packed .f (.float x) => bytesOfFloat x
  | packed .f (.int i) => bytesOfFloat ⟨BitVec.ofNat 64 ((F.ofInt i).getD 0)⟩
  | packed c (.int i) => natLE c.size (i % (256 : Int) ^ c.size).toNat
  | packed _ (.float _) => []
  | requires _ _ => []

end Item

/-- The reasons why a sequence of items cannot be written. -/
def causes (its : List Item) : List PyErr := its.filterMap Item.cause

/-- The bytes of a sequence of items. -/
def layoutBytes (its : List Item) : Bytes := its.flatMap Item.bytes

/-- The number of bytes of a sequence of items. -/
def layoutSize (its : List Item) : Nat := (its.map Item.size).sum

namespace Layout

def u8 (i : Int) : List Item := [.int 1 false i]
def i16 (i : Int) : List Item := [.int 2 true i]
def i32 (i : Int) : List Item := [.int 4 true i]
def u32 (i : Int) : List Item := [.int 4 false i]
def f32 (x : PyFloat) : List Item := [.float x]
def text (s : PyStr) : List Item := [.text s]
/-- the number of elements of a list, in one unsigned byte -/
def countU8 (l : List α) : List Item := [.count 1 false l.length]
/-- … in two bytes, signed -/
def countI16 (l : List α) : List Item := [.count 2 true l.length]
/-- … in four bytes, signed -/
def countI32 (l : List α) : List Item := [.count 4 true l.length]
/-- … in four bytes, unsigned -/
def countU32 (l : List α) : List Item := [.count 4 false l.length]
/-- the elements of a list, one after the other -/
def each (f : α → List Item) (l : List α) : List Item := l.flatMap f
/-- the elements of a list with empty slots, which take no room -/
def eachPresent (f : α → List Item) (l : List (Option α)) : List Item := each f (l.filterMap id)
/-- for each slot 1 if it is filled, 0 if it is empty -/
def pointers (l : List (Option α)) : List Item := l.map fun o => .slot o.isSome
/-- an optional part, written only under a condition -/
def part (c : Prop) [Decidable c] (f : α → List Item) (o : Option α) : List Item :=
  if c then (match o with | some a => f a | none => []) else []
/-- a part that exists since version `n` -/
def since (v : Version) (n : Nat) (its : List Item) : List Item := if n ≤ v.num then its else []
/-- a condition for writing the record -/
def requires (c : Prop) [Decidable c] (e : PyErr) : List Item := [.requires (decide c) e]
/-- the format characters of a string -/
def codes (s : String) : List Code := s.toList.filterMap Code.ofChar
/-- a struct-packed block: the number of values must be right (it is checked before the values are) -/
def block (fmt : String) (vs : List Val) : List Item :=
  requires ((codes fmt).length = vs.length) .structError ++
    if (codes fmt).length = vs.length then List.zipWith Item.packed (codes fmt) vs else []

end Layout

end Genie
