import Verif.Spec.EditObjects
/-!
# Statements of a modding script

A statement of a Python program that edits a loaded file, together with what it does to the value of the file.
-/

namespace Genie

/-- A statement.  The record is at `p`; `u` is the value on the right (or in the parentheses), which may have `int`s where the file has floats
(`unit.speed = 1`) and attributes that its class does not declare. -/
inductive FileEdit : Type 1 where
  /-- `data….f = …` -/
  | set {n : Node} (p : Place .file n) (A : Attr n.Obj) (hA : A ∈ n.attrs) (u : ObjTree) (w : A.Val) (hu : Carries u (A.object w))
  /-- `data….f[k] = …` -/
  | setItem {n : Node} (p : Place .file n) (L : ListAttr n.Obj) (hL : L ∈ n.listAttrs) (k : Nat) (u : ObjTree) (e : L.Elem)
      (hu : Carries u (L.object e))
  /-- `data….f.append(…)` -/
  | append {n : Node} (p : Place .file n) (L : ListAttr n.Obj) (hL : L ∈ n.listAttrs) (u : ObjTree) (e : L.Elem) (hu : Carries u (L.object e))
  /-- `data….f.pop()` -/
  | pop {n : Node} (p : Place .file n) (L : ListAttr n.Obj) (hL : L ∈ n.listAttrs)
  /-- `data….f.insert(k, …)` -/
  | insert {n : Node} (p : Place .file n) (L : ListAttr n.Obj) (hL : L ∈ n.listAttrs) (k : Nat) (u : ObjTree) (e : L.Elem)
      (hu : Carries u (L.object e))
  /-- `del data….f[k]` -/
  | delItem {n : Node} (p : Place .file n) (L : ListAttr n.Obj) (hL : L ∈ n.listAttrs) (k : Nat)
  /-- `del data….f[i:j]` -/
  | delSlice {n : Node} (p : Place .file n) (L : ListAttr n.Obj) (hL : L ∈ n.listAttrs) (i j : Nat)
  /-- `data….g = …`, where `g` is not declared by the class (and not one of its methods): a typing error, or a note of the user. -/
  | create {n : Node} (p : Place .file n) (g : PyStr) (hg : ∀ A ∈ n.attrs, lit A.name ≠ g) (hc : HReader.ofClass g = false) (u : ObjTree)

/-- The exceptions of a place that is not there: `IndexError` for `data.civs[99]`, `AttributeError` for `None.f = …`, `TypeError` for `None[0]`. -/
def Absent (e : PyErr) : Prop := e = .indexError ∨ e = .attributeError ∨ e = .typeError

namespace FileEdit

/-- The statement. -/
def python : FileEdit → Edit
  | set p A _ u _ _ => ⟨p.path, .setAttr (lit A.name), u⟩
  | setItem p L _ k u _ _ => ⟨p.path ++ [.attr (lit L.name)], .setItem k, u⟩
  | append p L _ u _ _ => ⟨p.path ++ [.attr (lit L.name)], .append, u⟩
  | pop p L _ => ⟨p.path ++ [.attr (lit L.name)], .pop, .none⟩
  | insert p L _ k u _ _ => ⟨p.path ++ [.attr (lit L.name)], .insert k, u⟩
  | delItem p L _ k => ⟨p.path ++ [.attr (lit L.name)], .delItem k, .none⟩
  | delSlice p L _ i j => ⟨p.path ++ [.attr (lit L.name)], .delSlice i j, .none⟩
  | create p g _ _ u => ⟨p.path, .setAttr g, u⟩

/-- What it does to the file, if there is such a place. -/
def apply : FileEdit → DatFile → Option DatFile
  | set p A _ _ w _, d => (p.get d).map fun x => p.set d (A.set x w)
  | setItem p L _ k _ e _, d => (p.get d).bind fun x =>
    if k < (L.get x).length then some (p.set d (L.set x ((L.get x).set k e))) else none
  | append p L _ _ e _, d => (p.get d).map fun x => p.set d (L.set x (L.get x ++ [e]))
  | pop p L _, d => (p.get d).bind fun x =>
    if 0 < (L.get x).length then some (p.set d (L.set x (L.get x).dropLast)) else none
  | insert p L _ k _ e _, d => (p.get d).map fun x => p.set d (L.set x ((L.get x).take k ++ [e] ++ (L.get x).drop k))
  | delItem p L _ k, d => (p.get d).bind fun x =>
    if k < (L.get x).length then some (p.set d (L.set x ((L.get x).take k ++ (L.get x).drop (k + 1)))) else none
  | delSlice p L _ i j, d => (p.get d).map fun x => p.set d (L.set x ((L.get x).take i ++ (L.get x).drop (max i j)))
  | create p _ _ _ _, d => (p.get d).map fun _ => d

/-- One after the other. -/
def applyAll : List FileEdit → DatFile → Option DatFile
  | [], d => some d
  | e :: es, d => (e.apply d).bind (applyAll es)

/-- A terrain restriction on the way is named with the length of its tables (`Slot.Right`). -/
def Right : FileEdit → DatFile → Prop
  | set p _ _ _ _ _, d | setItem p _ _ _ _ _ _, d | append p _ _ _ _ _, d | pop p _ _, d | insert p _ _ _ _ _ _, d | delItem p _ _ _, d
  | delSlice p _ _ _ _, d | create p _ _ _ _, d => p.Right d

/-- … at the time of each statement. -/
def RightAll : List FileEdit → DatFile → Prop
  | [], _ => True
  | e :: es, d => e.Right d ∧ ∀ d', e.apply d = some d' → RightAll es d'

end FileEdit
end Genie
