import Verif.Spec.Types
import Verif.Spec.Annotations
import Verif.Py.Float
import Verif.Model.HeapPrograms
/-!
# Well-typed objects and well-typed programs, as a type checker sees them

`Suits D a t`: like `HasType`, but an `int` may stand where a `float` is declared (PEP 484), unless it is too large for `float(…)`.
`Leads D a p b`: starting from an expression of type `a`, the expression with `p` appended has type `b`; where the type is `… | None` the
checker goes on as if it were not `None`.  `Edit.Typed`: a statement whose place and value have fitting types.
-/

namespace Genie

mutual
/-- An object with this value may stand where the annotation is declared. -/
inductive Suits (D : PyStr → List (PyStr × Ann) → Prop) : Ann → ObjTree → Prop
  | int (i : Int) : Suits D .int (.int i)
  | float (x : PyFloat) : Suits D .float (.float x)
  | promote {i : Int} {d : Nat} : F.ofInt i = some d → Suits D .float (.int i)
  | str (s : PyStr) : Suits D .str (.str s)
  | list {a : Ann} {ts : List ObjTree} : (∀ t ∈ ts, Suits D a t) → Suits D (.list a) (.list ts)
  | tuple {as : List Ann} {ts : List ObjTree} : SuitsAll D as ts → Suits D (.tuple as) (.tuple ts)
  | none {a : Ann} : Suits D (.opt a) .none
  | some {a : Ann} {t : ObjTree} : Suits D a t → Suits D (.opt a) t
  | cls {c : PyStr} {fs : List (PyStr × Ann)} {ts : List (PyStr × ObjTree)} : D c fs → SuitsFields D fs ts → Suits D (.cls c) (.obj c ts)
/-- The elements of a tuple. -/
inductive SuitsAll (D : PyStr → List (PyStr × Ann) → Prop) : List Ann → List ObjTree → Prop
  | nil : SuitsAll D [] []
  | cons {a : Ann} {t : ObjTree} {as : List Ann} {ts : List ObjTree} : Suits D a t → SuitsAll D as ts → SuitsAll D (a :: as) (t :: ts)
/-- The attributes of an instance: the declared ones, in order. -/
inductive SuitsFields (D : PyStr → List (PyStr × Ann) → Prop) : List (PyStr × Ann) → List (PyStr × ObjTree) → Prop
  | nil : SuitsFields D [] []
  | cons {n : PyStr} {a : Ann} {t : ObjTree} {fs : List (PyStr × Ann)} {ts : List (PyStr × ObjTree)} :
      Suits D a t → SuitsFields D fs ts → SuitsFields D ((n, a) :: fs) ((n, t) :: ts)
end

/-- The annotation of a field. -/
def annOf (name : PyStr) : List (PyStr × Ann) → Option Ann
  | [] => none
  | (n, a) :: rest => if n = name then some a else annOf name rest

/-- The static type of an expression. -/
inductive Leads (D : PyStr → List (PyStr × Ann) → Prop) : Ann → ObjPath → Ann → Prop
  | here {a : Ann} : Leads D a [] a
  | attr {c n : PyStr} {fs : List (PyStr × Ann)} {a b : Ann} {p : ObjPath} :
      D c fs → annOf n fs = some a → Leads D a p b → Leads D (.cls c) (.attr n :: p) b
  | listItem {a b : Ann} {i : Nat} {p : ObjPath} : Leads D a p b → Leads D (.list a) (.item i :: p) b
  | tupleItem {as : List Ann} {a b : Ann} {i : Nat} {p : ObjPath} : as[i]? = some a → Leads D a p b → Leads D (.tuple as) (.item i :: p) b
  | opt {a b : Ann} {p : ObjPath} : Leads D a p b → Leads D (.opt a) p b

/-- A statement that a type checker accepts, for an object of type `root`: `….name = v`, `….[i] = v`, `….append(v)`, `….pop()`,
`….insert(i, v)`, `del ….[i]` and `del ….[i:j]`. -/
inductive Edit.Typed (D : PyStr → List (PyStr × Ann) → Prop) (root : Ann) : Edit → Prop
  | setAttr {p : ObjPath} {c n : PyStr} {fs : List (PyStr × Ann)} {a : Ann} {v : ObjTree} :
      Leads D root p (.cls c) → D c fs → annOf n fs = some a → Suits D a v → Edit.Typed D root ⟨p, .setAttr n, v⟩
  | setItem {p : ObjPath} {i : Nat} {a : Ann} {v : ObjTree} : Leads D root p (.list a) → Suits D a v → Edit.Typed D root ⟨p, .setItem i, v⟩
  | append {p : ObjPath} {a : Ann} {v : ObjTree} : Leads D root p (.list a) → Suits D a v → Edit.Typed D root ⟨p, .append, v⟩
  | pop {p : ObjPath} {a : Ann} {v : ObjTree} : Leads D root p (.list a) → Edit.Typed D root ⟨p, .pop, v⟩
  | insert {p : ObjPath} {i : Nat} {a : Ann} {v : ObjTree} : Leads D root p (.list a) → Suits D a v → Edit.Typed D root ⟨p, .insert i, v⟩
  | delItem {p : ObjPath} {i : Nat} {a : Ann} {v : ObjTree} : Leads D root p (.list a) → Edit.Typed D root ⟨p, .delItem i, v⟩
  | delSlice {p : ObjPath} {i j : Nat} {a : Ann} {v : ObjTree} : Leads D root p (.list a) → Edit.Typed D root ⟨p, .delSlice i j, v⟩

end Genie
