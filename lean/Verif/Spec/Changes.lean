import Verif.Spec.Forest
/-! # A rule for loops: programs that change one place -/

namespace Genie

/-- The object at the place `p` of the tree `r` has become `u`: the rest of that tree and the other trees are as they were, and so are the
spots of the objects that were not inside that place. -/
structure Forest.Changed (F F' : Forest) (r : Nat) (p : ObjPath) (u : ObjTree) : Prop where
  tree : ∀ t, F.trees[r]? = some t → F'.trees[r]? = some (t.put p u)
  others : ∀ k, k ≠ r → k < F.trees.length → F'.trees[k]? = F.trees[k]?
  spots : ∀ (k : Nat) (q : Spot), F.spots[k]? = some q → (q.1 = r → p <+: q.2 → q.2 = p) → F'.spots[k]? = some q
  trees_length : F.trees.length ≤ F'.trees.length
  spots_length : F.spots.length ≤ F'.spots.length

/-- On every forest with the object `o` at the spot `(r, p)`, the program, which has `o` as a variable, makes `u'` of the `u` there. -/
def Prog.Makes (z : Zlib) (env : Nat → Environment) (depth : Nat) (prog : Prog PUnit) (o : Nat) (u u' : ObjTree) : Prop :=
  ∀ (F : Forest) (disk : FileSystem) (i r : Nat) (p : ObjPath) (t : ObjTree), F.spots[o]? = some (r, p) → F.trees[r]? = some t → t.get p = some u →
    ∃ F' j, prog.onForest z env depth i ⟨disk, F⟩ = some (.returned ⟨⟩, j, ⟨disk, F'⟩) ∧ F.Changed F' r p u'

end Genie
