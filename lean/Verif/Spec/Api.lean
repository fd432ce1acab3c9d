import Verif.Model.Common
/-!
# Vocabulary of the property statements
-/

namespace Genie

/-- `r`, started on a handler of version `v` whose offset is at the first byte of `bs`, whatever bytes
come before (`pre`) and after (`post`), returns `a`, has moved the offset by exactly `bs.length`, and has
changed nothing else. -/
def ReadsBackAs (v : Version) (r : Reader α) (bs : Bytes) (a : α) : Prop :=
  ∀ (pre post : Bytes) (l : Bool),
    r { content := pre ++ bs ++ post, offset := pre.length, version := v, lossy := l } =
      .ok (a, { content := pre ++ bs ++ post, offset := pre.length + bs.length, version := v, lossy := l })

/-- The bytes a call consumed: the ones between the offset before (`h`) and after (`h'`) it. -/
def consumed (h h' : ByteHandler) : Bytes := (h.content.drop h.offset).take (h'.offset - h.offset)

/-- The call did not run past the end of the data. -/
def Within (h' : ByteHandler) : Prop := h'.offset ≤ h'.content.length

/-- `h'` is the handler `h` moved on by `n` bytes: nothing else has changed. -/
def MovedBy (n : Nat) (h h' : ByteHandler) : Prop :=
  h'.content = h.content ∧ h'.version = h.version ∧ h'.offset = h.offset + n

/-- The exception a call raised, if any. -/
def errorOf (x : Py α) : Option PyErr := match x with | .ok _ => none | .error e => some e

/-- The result of a call, if it returned. -/
def resultOf (x : Py α) : Option α := match x with | .ok a => some a | .error _ => none

/-- The call did not raise. -/
def Succeeds (x : Py α) : Prop := ∃ a, x = .ok a

/-- The call raised `e`. -/
def Raises (x : Py α) (e : PyErr) : Prop := x = .error e

end Genie
