import Verif.Spec.Objects
/-!
# An `int` where a `float` is expected

Python's type annotations let an `int` stand for a `float`.  `Converts t t'`: the objects are alike, except that some numbers that are
floats in `t'` may be `int`s in `t`, which `float(…)` turns into the ones in `t'`.
-/

namespace Genie

mutual
/-- `t` is `t'` up to `int`s standing for floats. -/
inductive Converts : ObjTree → ObjTree → Prop
  | none : Converts .none .none
  | int (i : Int) : Converts (.int i) (.int i)
  | float (x : PyFloat) : Converts (.float x) (.float x)
  | str (s : PyStr) : Converts (.str s) (.str s)
  | promote {i : Int} {d : Nat} : F.ofInt i = some d → Converts (.int i) (.float ⟨BitVec.ofNat 64 d⟩)
  | list {ts us : List ObjTree} : ConvertsItems ts us → Converts (.list ts) (.list us)
  | tuple {ts us : List ObjTree} : ConvertsItems ts us → Converts (.tuple ts) (.tuple us)
  | obj {c : PyStr} {ts us : List (PyStr × ObjTree)} : ConvertsAttrs ts us → Converts (.obj c ts) (.obj c us)
/-- Element by element. -/
inductive ConvertsItems : List ObjTree → List ObjTree → Prop
  | nil : ConvertsItems [] []
  | cons {t u : ObjTree} {ts us : List ObjTree} : Converts t u → ConvertsItems ts us → ConvertsItems (t :: ts) (u :: us)
/-- Attribute by attribute. -/
inductive ConvertsAttrs : List (PyStr × ObjTree) → List (PyStr × ObjTree) → Prop
  | nil : ConvertsAttrs [] []
  | cons {n : PyStr} {t u : ObjTree} {ts us : List (PyStr × ObjTree)} :
      Converts t u → ConvertsAttrs ts us → ConvertsAttrs ((n, t) :: ts) ((n, u) :: us)
end

mutual
/-- `t` is `t'` up to `int`s standing for floats and attributes that `t'` does not have (`unit.note = 'mine'`).  What the writers look at is
the same. -/
inductive Carries : ObjTree → ObjTree → Prop
  | none : Carries .none .none
  | int (i : Int) : Carries (.int i) (.int i)
  | float (x : PyFloat) : Carries (.float x) (.float x)
  | str (s : PyStr) : Carries (.str s) (.str s)
  | promote {i : Int} {d : Nat} : F.ofInt i = some d → Carries (.int i) (.float ⟨BitVec.ofNat 64 d⟩)
  | list {ts us : List ObjTree} : CarriesItems ts us → Carries (.list ts) (.list us)
  | tuple {ts us : List ObjTree} : CarriesItems ts us → Carries (.tuple ts) (.tuple us)
  | obj {c : PyStr} {ts us : List (PyStr × ObjTree)} : CarriesAttrs ts us → Carries (.obj c ts) (.obj c us)
/-- Element by element. -/
inductive CarriesItems : List ObjTree → List ObjTree → Prop
  | nil : CarriesItems [] []
  | cons {t u : ObjTree} {ts us : List ObjTree} : Carries t u → CarriesItems ts us → CarriesItems (t :: ts) (u :: us)
/-- Attribute by attribute; the additional ones are the last. -/
inductive CarriesAttrs : List (PyStr × ObjTree) → List (PyStr × ObjTree) → Prop
  | extra {ts : List (PyStr × ObjTree)} : CarriesAttrs ts []
  | cons {n : PyStr} {t u : ObjTree} {ts us : List (PyStr × ObjTree)} :
      Carries t u → CarriesAttrs ts us → CarriesAttrs ((n, t) :: ts) ((n, u) :: us)
end

end Genie
