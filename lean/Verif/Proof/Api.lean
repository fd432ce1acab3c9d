import Verif.Spec.Api
import Verif.Proof.Framework
/-! # From the proof predicates to the vocabulary of the statements -/

namespace Genie

theorem bind_ok {r : Reader α} {f : α → Reader β} {h h' : ByteHandler} {a : α} (hr : r h = .ok (a, h')) :
    (r >>= f) h = f a h' := by
  show (match r h with | .error e => Except.error e | .ok (a, h') => f a h') = _
  rw [hr]

theorem bind_err {r : Reader α} {f : α → Reader β} {h : ByteHandler} {e : PyErr} (hr : r h = .error e) :
    (r >>= f) h = .error e := by
  show (match r h with | .error e => Except.error e | .ok (a, h') => f a h') = _
  rw [hr]

theorem Reads.readsBackAs {v : Version} {r : Reader α} {bs : Bytes} {a : α} (h : Reads v r bs a) :
    ReadsBackAs v r bs a := by
  intro pre post l
  refine h { content := pre ++ bs ++ post, offset := pre.length, version := v, lossy := l } rfl ?_
  exact ⟨post, by simp⟩

theorem RW.readsBackAs {v : Version} {r : Reader α} {w : Py Bytes} {a : α} (h : RW v r w a) :
    ∃ bs, w = .ok bs ∧ ReadsBackAs v r bs a := by
  obtain ⟨bs, h1, h2⟩ := h
  exact ⟨bs, h1, h2.readsBackAs⟩

theorem ReadsBackAs.unique {v : Version} {r : Reader α} {bs : Bytes} {a b : α}
    (h1 : ReadsBackAs v r bs a) (h2 : ReadsBackAs v r bs b) : a = b := by
  have := (h1 [] [] false).symm.trans (h2 [] [] false)
  simp at this; exact this

end Genie
