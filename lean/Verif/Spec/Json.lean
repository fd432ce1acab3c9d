import Verif.Py.Json
/-!
# Vocabulary for statements about trees and their JSON text
-/

namespace Genie.PyTree

/-- The NaN that stands for all NaNs. -/
def theNaN : PyFloat := ⟨0x7FF8000000000000#64⟩

mutual
/-- The tree with every NaN replaced by one and the same NaN (JSON text does not show payload and sign of a NaN). -/
def forgetNaN : PyTree → PyTree
  | .none => .none
  | .int i => .int i
  | .float x => .float (if F.isNaN x then theNaN else x)
  | .str s => .str s
  | .list l => .list (forgetNaNs l)
  | .dict kvs => .dict (forgetNaNItems kvs)
/-- `forgetNaN`, for the elements of a list. -/
def forgetNaNs : List PyTree → List PyTree
  | [] => []
  | t :: ts => forgetNaN t :: forgetNaNs ts
/-- `forgetNaN`, for the values of a dict. -/
def forgetNaNItems : List (PyStr × PyTree) → List (PyStr × PyTree)
  | [] => []
  | (k, t) :: ts => (k, forgetNaN t) :: forgetNaNItems ts
end

mutual
/-- No float of the tree is a NaN. -/
def NaNFree : PyTree → Prop
  | .float x => F.isNaN x = false
  | .list l => NaNFrees l
  | .dict kvs => NaNFreeItems kvs
  | _ => True
/-- `NaNFree`, for the elements of a list. -/
def NaNFrees : List PyTree → Prop
  | [] => True
  | t :: ts => NaNFree t ∧ NaNFrees ts
/-- `NaNFree`, for the values of a dict. -/
def NaNFreeItems : List (PyStr × PyTree) → Prop
  | [] => True
  | (_, t) :: ts => NaNFree t ∧ NaNFreeItems ts
end

/-- A string without lone surrogates. -/
def Text (s : PyStr) : Prop := ∀ c ∈ s, isScalar c = true

mutual
/-- No string or key of the tree contains a lone surrogate. -/
def Texts : PyTree → Prop
  | .str s => Text s
  | .list l => TextsAll l
  | .dict kvs => TextsItems kvs
  | _ => True
/-- `Texts`, for the elements of a list. -/
def TextsAll : List PyTree → Prop
  | [] => True
  | t :: ts => Texts t ∧ TextsAll ts
/-- `Texts`, for the items of a dict. -/
def TextsItems : List (PyStr × PyTree) → Prop
  | [] => True
  | (k, t) :: ts => Text k ∧ Texts t ∧ TextsItems ts
end

/-- `tree[key]` in Python (the first item with that key). -/
def key (k : String) : PyTree → Option PyTree
  | .dict kvs => (kvs.find? fun kv => kv.1 == lit k).map (·.2)
  | _ => .none

/-- `tree[i]` in Python (for `i ≥ 0`). -/
def index (i : Nat) : PyTree → Option PyTree
  | .list l => l[i]?
  | _ => .none

/-- `list(tree.keys())`. -/
def keys : PyTree → List PyStr
  | .dict kvs => kvs.map (·.1)
  | _ => []

end Genie.PyTree
