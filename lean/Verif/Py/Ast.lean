import Lean.Elab.Term
/-!
# Python source code as data

The part of Python's abstract syntax that `/repo/src/genieutils` uses.  `tools/gen_source.py` writes the syntax tree that Python's own
parser (`ast`) gives for every class into `Verif/Model/Source.lean`; `Verif/Py/Interp.lean` says what it means.
-/

namespace Genie.Src

/-- An identifier, as the number whose base-256 digits are its ASCII characters (so that comparing two identifiers is comparing two
numbers); written `n!"identifier"`. -/
abbrev Name := Nat

open Lean in
/-- `n!"abc"` is the number of the identifier `abc`. -/
elab:max "n!" s:str : term => do
  let n := s.getString.toUTF8.foldl (init := 0) fun n b => n * 256 + b.toNat
  return mkRawNatLit n |> fun l => mkApp3 (mkConst ``OfNat.ofNat [levelZero]) (mkConst ``Nat) l (mkApp (mkConst ``instOfNatNat) l)

/-- Operators of comparisons. -/
inductive Cmp where
  | eq | ne | lt | le | gt | ge | is | isNot
deriving DecidableEq

/-- Arithmetic operators. -/
inductive Bin where
  | add | sub | mul
deriving DecidableEq

/-- Expressions.  The constructors `argNil`, `arg`, `kw` and `star` are not expressions but make up argument lists and the elements of
lists and tuples; `cmpNil` and `cmp` make up the tail `op e op e …` of a comparison. -/
inductive Ex where
  | name (x : Name)
  | int (i : Int)
  /-- a `float` literal, by the bits of the number -/
  | float (bits : Nat)
  | str (s : String)
  | bytes (b : List Nat)
  | none
  | bool (b : Bool)
  | attr (e : Ex) (a : Name)
  | call (f args : Ex)
  | tuple (es : Ex)
  | list (es : Ex)
  | compare (l : Ex) (tail : Ex)
  | cmpNil
  | cmp (op : Cmp) (r tail : Ex)
  | bin (op : Bin) (l r : Ex)
  | neg (e : Ex)
  | not (e : Ex)
  | and (l r : Ex)
  | ifExp (c a b : Ex)
  | index (e i : Ex)
  | slice (e i j : Ex)
  /-- `elt for x in it` (generator expression, list comprehension) -/
  | comp (elt : Ex) (x : Name) (it : Ex)
  /-- `elt for x in it if c` -/
  | compIf (elt : Ex) (x : Name) (it c : Ex)
  | argNil
  | arg (e rest : Ex)
  | kw (k : Name) (e rest : Ex)
  | star (e rest : Ex)

/-- Statements, each followed by the rest of its block. -/
inductive St where
  | done
  | assign (x : Name) (e : Ex) (rest : St)
  /-- `x += e` and the like -/
  | aug (x : Name) (op : Bin) (e : Ex) (rest : St)
  /-- `x, y, … = e` -/
  | unpack (xs : List Name) (e : Ex) (rest : St)
  /-- `o.a = e` -/
  | setAttr (o : Ex) (a : Name) (e : Ex) (rest : St)
  | expr (e : Ex) (rest : St)
  | assert (c : Ex) (rest : St)
  | ite (c : Ex) (a b rest : St)
  | forIn (x : Name) (it : Ex) (body rest : St)
  | ret (e : Ex)
  | raise (e : Ex)

/-- How a function of a class is called. -/
inductive Kind where
  | method | classMethod | staticMethod | property
deriving DecidableEq

/-- A function: its parameters, with default values (`argNil`: none), and its body. -/
structure Fun where
  name : Name
  kind : Kind
  params : List (Name × Ex)
  body : St

/-- A class: the module it is in, its (first) base class, its fields (annotated names, in order, with their defaults), its class variables and functions. -/
structure Cls where
  name : Name
  module : Name
  base : Name
  dataclass : Bool
  fields : List (Name × Ex)
  vars : List (Name × Ex)
  funs : List Fun

/-- What a name means in a module: a constant of the module, a class (of the package), or something from outside the package. -/
inductive Glob where
  | const (e : Ex)
  | cls
  | lib
  /-- `from m import x` with a module `m` of the package -/
  | from_ (m : Name)

/-- A module: the names it defines. -/
structure Module where
  name : Name
  globals : List (Name × Glob)

end Genie.Src
