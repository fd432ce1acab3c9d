import Verif.Py.Parse
import Verif.Py.AstEq
/-!
# Comparing what the parser returns with what it should return
-/

namespace Genie.Src.Text

/-- Is this what the parser returned? -/
def Parsed.same (a : Option Parsed) (b : Parsed) : Bool :=
  match a with
  | none => false
  | some a => listEq globEq a.globals b.globals && listEq Cls.same a.classes b.classes && listEq Fun.same a.funs b.funs && St.same a.body b.body

theorem Parsed.same_eq {a : Option Parsed} {b : Parsed} (h : Parsed.same a b = true) : a = some b := by
  unfold Parsed.same at h
  split at h
  · cases h
  · rename_i a
    obtain ⟨g, c, f, s⟩ := a
    obtain ⟨g', c', f', s'⟩ := b
    simp only [Bool.and_eq_true] at h
    obtain ⟨⟨⟨h1, h2⟩, h3⟩, h4⟩ := h
    rw [listEq_eq globEq_eq h1, listEq_eq Cls.same_eq h2, listEq_eq Fun.same_eq h3, St.same_eq h4]

/-- `TypeVar('C', bound=GenieClass)` — `/repo/src/genieutils/common.py:86`.  `C` is used in annotations only. -/
def typeVar : Ex := .call (.name n!"TypeVar") (.arg (.str "C") (.kw n!"bound" (.name n!"GenieClass") .argNil))

/-- `if __name__ == '__main__': main()` — `/repo/src/genieutils/scripts.py:26-27`. -/
def main : St := .ite (.compare (.name n!"__name__") (.cmp .eq (.str "__main__") .cmpNil)) (.expr (.call (.name n!"main") .argNil) .done) .done .done

end Genie.Src.Text
