import Verif.Spec.Objects
import Verif.Spec.Json
import Verif.Py.Repr
/-!
# The text of a value

What `repr` shows of an object with a given value, and vocabulary for what it leaves out.
-/

namespace Genie
namespace ObjTree

mutual
/-- The text that shows a value: `Class(name=value, …)`, `[value, …]`, `(value, …)`; a tuple with one element is `(value,)`. -/
def text (digits : Json.FloatRepr) (printable : Nat → Bool) : ObjTree → PyStr
  | .none => lit "None"
  | .int i => Json.intRepr i
  | .float x => PyRepr.floatRepr digits x
  | .str s => PyRepr.strRepr printable s
  | .list [] => lit "[]"
  | .list (t :: ts) => lit "[" ++ (text digits printable t ++ (textItems digits printable ts ++ lit "]"))
  | .tuple [] => lit "()"
  | .tuple [t] => lit "(" ++ (text digits printable t ++ lit ",)")
  | .tuple (t :: u :: ts) => lit "(" ++ (text digits printable t ++ (textItems digits printable (u :: ts) ++ lit ")"))
  | .obj cls [] => cls ++ lit "()"
  | .obj cls ((n, t) :: ts) => cls ++ (lit "(" ++ (n ++ (lit "=" ++ (text digits printable t ++ (textAttrs digits printable ts ++ lit ")")))))
/-- The elements after the first. -/
def textItems (digits : Json.FloatRepr) (printable : Nat → Bool) : List ObjTree → PyStr
  | [] => []
  | t :: ts => lit ", " ++ (text digits printable t ++ textItems digits printable ts)
/-- The attributes after the first. -/
def textAttrs (digits : Json.FloatRepr) (printable : Nat → Bool) : List (PyStr × ObjTree) → PyStr
  | [] => []
  | (n, t) :: ts => lit ", " ++ (n ++ (lit "=" ++ (text digits printable t ++ textAttrs digits printable ts)))
end

mutual
/-- The value with every NaN replaced by one and the same NaN (the text `nan` does not show payload and sign). -/
def forgetNaN : ObjTree → ObjTree
  | .none => .none
  | .int i => .int i
  | .float x => .float (if F.isNaN x then PyTree.theNaN else x)
  | .str s => .str s
  | .list ts => .list (forgetNaNs ts)
  | .tuple ts => .tuple (forgetNaNs ts)
  | .obj cls ts => .obj cls (forgetNaNAttrs ts)
/-- The same for elements. -/
def forgetNaNs : List ObjTree → List ObjTree
  | [] => []
  | t :: ts => forgetNaN t :: forgetNaNs ts
/-- The same for attributes. -/
def forgetNaNAttrs : List (PyStr × ObjTree) → List (PyStr × ObjTree)
  | [] => []
  | (n, t) :: ts => (n, forgetNaN t) :: forgetNaNAttrs ts
end

/-- A letter, a digit or `_`. -/
def identChar (c : Nat) : Bool := (65 ≤ c && c ≤ 90) || (97 ≤ c && c ≤ 122) || (48 ≤ c && c ≤ 57) || c == 95

/-- A (non-empty) name made of such characters. -/
def Name (s : PyStr) : Prop := s ≠ [] ∧ ∀ c ∈ s, identChar c = true

/-- Every string in the value consists of code points (as Python's strings do). -/
def Codes (t : ObjTree) : Prop := ∀ p s, t.get p = Option.some (.str s) → ∀ c ∈ s, c < 0x110000

mutual
/-- Classes and attributes have names, and strings consist of code points. -/
inductive Printable : ObjTree → Prop
  | none : Printable .none
  | int (i : Int) : Printable (.int i)
  | float (x : PyFloat) : Printable (.float x)
  | str {s : PyStr} : (∀ c ∈ s, c < 0x110000) → Printable (.str s)
  | list {ts : List ObjTree} : PrintableItems ts → Printable (.list ts)
  | tuple {ts : List ObjTree} : PrintableItems ts → Printable (.tuple ts)
  | obj {cls : PyStr} {ts : List (PyStr × ObjTree)} : Name cls → PrintableAttrs ts → Printable (.obj cls ts)
/-- The same for elements. -/
inductive PrintableItems : List ObjTree → Prop
  | nil : PrintableItems []
  | cons {t : ObjTree} {ts : List ObjTree} : Printable t → PrintableItems ts → PrintableItems (t :: ts)
/-- The same for attributes. -/
inductive PrintableAttrs : List (PyStr × ObjTree) → Prop
  | nil : PrintableAttrs []
  | cons {n : PyStr} {t : ObjTree} {ts : List (PyStr × ObjTree)} : Name n → Printable t → PrintableAttrs ts → PrintableAttrs ((n, t) :: ts)
end

end ObjTree
end Genie
