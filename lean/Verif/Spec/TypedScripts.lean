import Verif.Model.HeapScripts
import Verif.Spec.Forest
import Verif.Spec.Fits
/-!
# Scripts as a type checker sees them

A type checker gives a type to every variable that holds an object (`types`, by the number of the object), accepts or rejects each operation,
and knows the type of its answer.  Where the answer may be `None` the script looks at it before it goes on (it sees which it is), so objects
never have a type `… | None`.
-/

namespace Genie

/-- `T` for `T | None`. -/
def Ann.strip : Ann → Ann
  | .opt a => a.strip
  | a => a

/-- What is handed over may stand where the annotation is declared. -/
inductive Arg.Suits (types : List Ann) : Ann → Arg → Prop
  | int (i : Int) : Arg.Suits types .int (.int i)
  | float (x : PyFloat) : Arg.Suits types .float (.float x)
  | promote {i : Int} {d : Nat} : F.ofInt i = some d → Arg.Suits types .float (.int i)
  | str (s : PyStr) : Arg.Suits types .str (.str s)
  | none {a : Ann} : Arg.Suits types (.opt a) .none
  | some {a : Ann} {v : Arg} : Arg.Suits types a v → Arg.Suits types (.opt a) v
  | object {a : Ann} {h : Nat} : types[h]? = some a → Arg.Suits types a (.object h)

/-- The same, one annotation for each. -/
inductive Arg.SuitsAll (types : List Ann) : List Ann → List Arg → Prop
  | nil : Arg.SuitsAll types [] []
  | cons {a : Ann} {v : Arg} {as : List Ann} {vs : List Arg} : v.Suits types a → Arg.SuitsAll types as vs → Arg.SuitsAll types (a :: as) (v :: vs)

/-- What the answer of an operation with this type can be; an object in an answer is the next one the script knows, and that has number `next`. -/
inductive Seen.Suits (next : Nat) : Ann → Seen → Prop
  | int (i : Int) : Seen.Suits next .int (.int i)
  | float (x : PyFloat) : Seen.Suits next .float (.float x)
  | promote {i : Int} {d : Nat} : F.ofInt i = some d → Seen.Suits next .float (.int i)
  | str (s : PyStr) : Seen.Suits next .str (.str s)
  | none {a : Ann} : Seen.Suits next (.opt a) .none
  | some {a : Ann} {v : Seen} : Seen.Suits next a v → Seen.Suits next (.opt a) v
  | list {a : Ann} : Seen.Suits next (.list a) (.object next .list)
  | tuple {as : List Ann} : Seen.Suits next (.tuple as) (.object next .tuple)
  | cls {c : PyStr} : Seen.Suits next (.cls c) (.object next (.instance c))

/-- An operation that a type checker accepts, and the type of its answer; with the class definitions `D`.  (Statements have the value `None`.) -/
inductive Op.Typed (D : PyStr → List (PyStr × Ann) → Prop) (types : List Ann) : Op → Ann → Prop
  | getAttr {o : Nat} {c n : PyStr} {fs : List (PyStr × Ann)} {a : Ann} :
      types[o]? = some (.cls c) → D c fs → annOf n fs = some a → Op.Typed D types (.getAttr o n) a
  | getItem {o : Nat} {i : Int} {a : Ann} : types[o]? = some (.list a) → Op.Typed D types (.getItem o i) a
  | getItemTuple {o : Nat} {i : Int} {as : List Ann} {j : Nat} {a : Ann} :
      types[o]? = some (.tuple as) → position as.length i = some j → as[j]? = some a → Op.Typed D types (.getItem o i) a
  | len {o : Nat} {a : Ann} : types[o]? = some (.list a) → Op.Typed D types (.len o) .int
  | lenTuple {o : Nat} {as : List Ann} : types[o]? = some (.tuple as) → Op.Typed D types (.len o) .int
  | same {o o' : Nat} : Op.Typed D types (.same o o') .int
  | setAttr {o : Nat} {c n : PyStr} {fs : List (PyStr × Ann)} {a : Ann} {v : Arg} :
      types[o]? = some (.cls c) → D c fs → annOf n fs = some a → v.Suits types a → Op.Typed D types (.setAttr o n v) (.opt .int)
  | setItem {o : Nat} {i : Int} {a : Ann} {v : Arg} : types[o]? = some (.list a) → v.Suits types a → Op.Typed D types (.setItem o i v) (.opt .int)
  | append {o : Nat} {a : Ann} {v : Arg} : types[o]? = some (.list a) → v.Suits types a → Op.Typed D types (.append o v) (.opt .int)
  | insert {o : Nat} {i : Int} {a : Ann} {v : Arg} : types[o]? = some (.list a) → v.Suits types a → Op.Typed D types (.insert o i v) (.opt .int)
  | pop {o : Nat} {i : Int} {a : Ann} : types[o]? = some (.list a) → Op.Typed D types (.pop o i) a
  | delItem {o : Nat} {i : Int} {a : Ann} : types[o]? = some (.list a) → Op.Typed D types (.delItem o i) (.opt .int)
  | delSlice {o : Nat} {i j : Int} {a : Ann} : types[o]? = some (.list a) → Op.Typed D types (.delSlice o i j) (.opt .int)
  | newList {vs : List Arg} {a : Ann} : (∀ v ∈ vs, v.Suits types a) → Op.Typed D types (.newList vs) (.list a)
  | newTuple {vs : List Arg} {as : List Ann} : Arg.SuitsAll types as vs → Op.Typed D types (.newTuple vs) (.tuple as)
  | new {c : PyStr} {fs : List (PyStr × Ann)} {vs : List (PyStr × Arg)} :
      D c fs → vs.map (·.1) = fs.map (·.1) → Arg.SuitsAll types (fs.map (·.2)) (vs.map (·.2)) → Op.Typed D types (.new c vs) (.cls c)
  | deepcopy {o : Nat} {a : Ann} : types[o]? = some a → Op.Typed D types (.deepcopy o) a
  | slice {o : Nat} {i j : Int} {a : Ann} : types[o]? = some (.list a) → Op.Typed D types (.slice o i j) (.list a)
  | sliceTuple {o : Nat} {i j : Int} {as : List Ann} : types[o]? = some (.tuple as) → Op.Typed D types (.slice o i j) (.tuple (sliceOf as i j))
  | extend {o p : Nat} {a : Ann} : types[o]? = some (.list a) → types[p]? = some (.list a) → Op.Typed D types (.extend o p) (.opt .int)
  | extendTuple {o p : Nat} {a : Ann} {as : List Ann} : types[o]? = some (.list a) → types[p]? = some (.tuple as) → (∀ b ∈ as, b = a) →
      Op.Typed D types (.extend o p) (.opt .int)
  | copy {o : Nat} {a : Ann} : types[o]? = some a → Op.Typed D types (.copy o) a

/-- The exceptions an accepted operation can still raise: an index that does not exist, a copy that is too deep. -/
def Op.MayRaise : Op → PyErr → Prop
  | .getItem _ _, e | .setItem _ _ _, e | .pop _ _, e | .delItem _ _, e => e = .indexError
  | .deepcopy _, e => e = .recursionError
  | _, _ => False

/-- The types of the objects a script knows, when it has got an answer of this type. -/
def extend (types : List Ann) (a : Ann) : Seen → List Ann
  | .object _ _ => types ++ [a.strip]
  | _ => types

/-- An action that a type checker accepts. -/
inductive Action.Typed (D : PyStr → List (PyStr × Ann) → Prop) (types : List Ann) : Action → Ann → Prop
  | op {o : Op} {a : Ann} : o.Typed D types a → Action.Typed D types (.op o) a
  | parse {p : Path} : Action.Typed D types (.parse p) (.cls (lit "DatFile"))
  | save {o : Nat} {p : Path} : types[o]? = some (.cls (lit "DatFile")) → Action.Typed D types (.save o p) (.opt .int)

/-- The exceptions it can still raise: those of reading a file; those of the disk, and of values that do not fit their fields. -/
def Action.MayRaise : Action → PyErr → Prop
  | .op o, e => o.MayRaise e
  | .parse _, e => e = .osError ∨ e = .zlibError ∨ e = .structError ∨ e = .assertionError ∨ e = .unicodeDecodeError ∨ e = .valueError
  | .save _ _, e => e = .osError ∨ e = .overflowError ∨ e = .structError ∨ e = .unicodeEncodeError ∨ e = .assertionError ∨ e = .indexError ∨
      e = .valueError

/-- A script that a type checker accepts: `T st types` holds if it can be in the state `st` with objects of these types; then it is accepted what it
does next, and so it goes on, whatever answer of the right type and whatever possible exception it gets. -/
def Script.Typed (D : PyStr → List (PyStr × Ann) → Prop) (P : Script σ α) (T : σ → List Ann → Prop) : Prop :=
  ∀ st types a next, T st types → P st = .call a next → ∃ ρ, a.Typed D types ρ ∧
    (∀ v, v.Suits types.length ρ → T (next (.ok v)) (extend types ρ v)) ∧ ∀ e, a.MayRaise e → T (next (.error e)) types

/-- A program that a type checker accepts, for a script that knows objects of these types: so is each action, and what follows, whatever answer of
the right type and whatever possible exception it gets; it does not end with a `TypeError` or `AttributeError`; and if it returns something, that is
as `Q` says (for a script that then knows objects of those types). -/
inductive Prog.Typed (D : PyStr → List (PyStr × Ann) → Prop) (Q : List Ann → α → Prop) : List Ann → Prog α → Prop
  | done {types : List Ann} {a : α} : Q types a → Prog.Typed D Q types (.done a)
  | raised {types : List Ann} {e : PyErr} : e ≠ .typeError → e ≠ .attributeError → Prog.Typed D Q types (.raised e)
  | act {types : List Ann} {a : Action} {ρ : Ann} {next : Seen → Prog α} {handler : PyErr → Prog α} : a.Typed D types ρ →
      (∀ v, v.Suits types.length ρ → Prog.Typed D Q (extend types ρ v) (next v)) → (∀ e, a.MayRaise e → Prog.Typed D Q types (handler e)) →
      Prog.Typed D Q types (.act a next handler)

/-! ## objects in memory that have types

Objects may be shared; each has one type (`typeOf`, by its address), and what it refers to has the types that this one declares. -/

/-- A value in memory may stand where the annotation is declared. -/
inductive HVal.Suits (typeOf : Nat → Option Ann) : Ann → HVal → Prop
  | int (i : Int) : HVal.Suits typeOf .int (.int i)
  | float (x : PyFloat) : HVal.Suits typeOf .float (.float x)
  | promote {i : Int} {d : Nat} : F.ofInt i = some d → HVal.Suits typeOf .float (.int i)
  | str (s : PyStr) : HVal.Suits typeOf .str (.str s)
  | none {a : Ann} : HVal.Suits typeOf (.opt a) .none
  | some {a : Ann} {v : HVal} : HVal.Suits typeOf a v → HVal.Suits typeOf (.opt a) v
  | ref {a : Ann} {b : Nat} : typeOf b = some a → HVal.Suits typeOf a (.ref b)

/-- The same, one annotation for each. -/
inductive HVal.SuitsAll (typeOf : Nat → Option Ann) : List Ann → List HVal → Prop
  | nil : HVal.SuitsAll typeOf [] []
  | cons {a : Ann} {v : HVal} {as : List Ann} {vs : List HVal} : v.Suits typeOf a → HVal.SuitsAll typeOf as vs → HVal.SuitsAll typeOf (a :: as) (v :: vs)

/-- An object of this type. -/
inductive Cell.Suits (D : PyStr → List (PyStr × Ann) → Prop) (typeOf : Nat → Option Ann) : Ann → Cell → Prop
  | list {a : Ann} {vs : List HVal} : (∀ v ∈ vs, v.Suits typeOf a) → Cell.Suits D typeOf (.list a) (.list vs)
  | tuple {as : List Ann} {vs : List HVal} : HVal.SuitsAll typeOf as vs → Cell.Suits D typeOf (.tuple as) (.tuple vs)
  | cls {c : PyStr} {fs : List (PyStr × Ann)} {vs : List (PyStr × HVal)} :
      D c fs → vs.map (·.1) = fs.map (·.1) → HVal.SuitsAll typeOf (fs.map (·.2)) (vs.map (·.2)) → Cell.Suits D typeOf (.cls c) (.record c vs)

/-- Every object with a type is one of that type. -/
def Heap.Typed (D : PyStr → List (PyStr × Ann) → Prop) (H : Heap) (typeOf : Nat → Option Ann) : Prop :=
  ∀ b a, typeOf b = some a → ∃ c, H[b]? = some c ∧ c.Suits D typeOf a

/-- The objects a script knows have these types, where each object has the type that `typeOf` says. -/
def NamesTyped (typeOf : Nat → Option Ann) (names : List HVal) (types : List Ann) : Prop :=
  types.length = names.length ∧ ∀ (h : Nat) (a : Ann), types[h]? = some a → ∃ b, names[h]? = some (.ref b) ∧ typeOf b = some a

/-- The objects a script knows have these types. -/
def Memory.Typed (D : PyStr → List (PyStr × Ann) → Prop) (W : Memory) (types : List Ann) : Prop :=
  ∃ typeOf, W.heap.Typed D typeOf ∧ NamesTyped typeOf W.names types

end Genie
