import Verif.Spec.Fits
import Verif.Spec.Copies
/-!
# Programs with copies that a type checker accepts
-/

namespace Genie

/-- The declared type of an expression, `… | None` included. -/
inductive ReadsAs (D : PyStr → List (PyStr × Ann) → Prop) (root : Ann) : ObjPath → Ann → Prop
  | attr {p : ObjPath} {c n : PyStr} {fs : List (PyStr × Ann)} {a : Ann} :
      Leads D root p (.cls c) → D c fs → annOf n fs = some a → ReadsAs D root (p ++ [.attr n]) a
  | listItem {p : ObjPath} {i : Nat} {a : Ann} : Leads D root p (.list a) → ReadsAs D root (p ++ [.item i]) a
  | tupleItem {p : ObjPath} {i : Nat} {as : List Ann} {a : Ann} : Leads D root p (.tuple as) → as[i]? = some a → ReadsAs D root (p ++ [.item i]) a

/-- Numbers, strings, tuples of such, and `… | None` of such. -/
inductive Ann.Immutable : Ann → Prop
  | int : Immutable .int
  | float : Immutable .float
  | str : Immutable .str
  | tuple {as : List Ann} : (∀ a ∈ as, Immutable a) → Immutable (.tuple as)
  | opt {a : Ann} : Immutable a → Immutable (.opt a)

/-- A right-hand side of type `a`: a new object, a copy of something of type `a` (or `a` without `None`), or, when the type is immutable,
that something itself. -/
inductive Source.Typed (D : PyStr → List (PyStr × Ann) → Prop) (root : Ann) : Ann → Source → Prop
  | new {a : Ann} {v : ObjTree} : Suits D a v → Source.Typed D root a (.new v)
  | copy {a b : Ann} {p : ObjPath} : ReadsAs D root p b → (a = b ∨ a = .opt b) → Source.Typed D root a (.copy p)
  | share {a b : Ann} {p : ObjPath} : ReadsAs D root p b → (a = b ∨ a = .opt b) → b.Immutable → Source.Typed D root a (.share p)

/-- A statement that a type checker accepts (and that shares nothing changeable), for an object of type `root`. -/
inductive Command.Typed (D : PyStr → List (PyStr × Ann) → Prop) (root : Ann) : Command → Prop
  | setAttr {p : ObjPath} {c n : PyStr} {fs : List (PyStr × Ann)} {a : Ann} {src : Source} :
      Leads D root p (.cls c) → D c fs → annOf n fs = some a → src.Typed D root a → Command.Typed D root ⟨p, .setAttr n, src⟩
  | setItem {p : ObjPath} {i : Nat} {a : Ann} {src : Source} :
      Leads D root p (.list a) → src.Typed D root a → Command.Typed D root ⟨p, .setItem i, src⟩
  | append {p : ObjPath} {a : Ann} {src : Source} : Leads D root p (.list a) → src.Typed D root a → Command.Typed D root ⟨p, .append, src⟩
  | pop {p : ObjPath} {a : Ann} : Leads D root p (.list a) → Command.Typed D root ⟨p, .pop, .new .none⟩
  | insert {p : ObjPath} {i : Nat} {a : Ann} {src : Source} :
      Leads D root p (.list a) → src.Typed D root a → Command.Typed D root ⟨p, .insert i, src⟩
  | delItem {p : ObjPath} {i : Nat} {a : Ann} : Leads D root p (.list a) → Command.Typed D root ⟨p, .delItem i, .new .none⟩
  | delSlice {p : ObjPath} {i j : Nat} {a : Ann} : Leads D root p (.list a) → Command.Typed D root ⟨p, .delSlice i j, .new .none⟩

end Genie
