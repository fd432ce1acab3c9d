import Verif.Spec.Objects
/-!
# Type annotations and what it means to have a type

An annotation is what stands after the colon in a class definition.  `HasType D a t`: an object with value `t` is an instance of the
annotation `a`, with the class definitions `D` — exact classes, exact tuple lengths, every attribute and every element checked.
-/

namespace Genie

/-- `int`, `float`, `str`, `list[…]`, `tuple[…, …]`, `… | None`, or a class. -/
inductive Ann where
  | int
  | float
  | str
  | list (element : Ann)
  | tuple (elements : List Ann)
  | opt (a : Ann)
  | cls (name : PyStr)
deriving Inhabited

mutual
/-- An object with this value is an instance of the annotation.  `D c fs`: the class `c` declares the fields `fs`. -/
inductive HasType (D : PyStr → List (PyStr × Ann) → Prop) : Ann → ObjTree → Prop
  | int (i : Int) : HasType D .int (.int i)
  | float (x : PyFloat) : HasType D .float (.float x)
  | str (s : PyStr) : HasType D .str (.str s)
  | list {a : Ann} {ts : List ObjTree} : (∀ t ∈ ts, HasType D a t) → HasType D (.list a) (.list ts)
  | tuple {as : List Ann} {ts : List ObjTree} : HasTypes D as ts → HasType D (.tuple as) (.tuple ts)
  | none {a : Ann} : HasType D (.opt a) .none
  | some {a : Ann} {t : ObjTree} : HasType D a t → HasType D (.opt a) t
  | cls {c : PyStr} {fs : List (PyStr × Ann)} {ts : List (PyStr × ObjTree)} : D c fs → HasFields D fs ts → HasType D (.cls c) (.obj c ts)
/-- The elements of a tuple: as many as annotated, each with its type. -/
inductive HasTypes (D : PyStr → List (PyStr × Ann) → Prop) : List Ann → List ObjTree → Prop
  | nil : HasTypes D [] []
  | cons {a : Ann} {t : ObjTree} {as : List Ann} {ts : List ObjTree} : HasType D a t → HasTypes D as ts → HasTypes D (a :: as) (t :: ts)
/-- The attributes of an instance: exactly the declared ones, in order, each with its type. -/
inductive HasFields (D : PyStr → List (PyStr × Ann) → Prop) : List (PyStr × Ann) → List (PyStr × ObjTree) → Prop
  | nil : HasFields D [] []
  | cons {n : PyStr} {a : Ann} {t : ObjTree} {fs : List (PyStr × Ann)} {ts : List (PyStr × ObjTree)} :
      HasType D a t → HasFields D fs ts → HasFields D ((n, a) :: fs) ((n, t) :: ts)
end

end Genie
