import Verif.Proof.Edits.Elems
/-!
# The bytes around an edit

`Slot.Keeps` is what is needed for the edited file to be read back as edited.  For the *bytes* outside of the place to stay the same, less is
enough: the hot key of a train location is stored at one place only.
-/

namespace Genie
open Layout

/-- The bytes around the slot do not depend on the new record. -/
def Slot.Fixes : Slot a b → a.Obj → b.Obj → Prop
  | .DatFile_terrain_restrictions n _, _, (y : Genie.TerrainRestriction) => y.passable_buildable_dmg_multiplier.length = n
  | _, _, _ => True

/-- The bytes around the place do not depend on the new record. -/
def Place.Fixes : Place a b → a.Obj → b.Obj → Prop
  | .here, _, _ => True
  | .step s p, x, y => match s.get x with
    | none => False
    | some m => p.Fixes m y ∧ s.Fixes x (p.set m y)

/-- The number of terrains of a terrain restriction is the same. -/
def Node.Fixed : (n : Node) → n.Obj → n.Obj → Prop
  | .record (.TerrainRestriction _), (x : Genie.TerrainRestriction), (y : Genie.TerrainRestriction) =>
    y.passable_buildable_dmg_multiplier.length = x.passable_buildable_dmg_multiplier.length
  | _, _, _ => True

theorem Node.Kept.fixed {n : Node} {x y : n.Obj} (h : n.Kept x y) : n.Fixed x y := by
  unfold Node.Fixed
  split
  · exact h
  · trivial

theorem Slot.splits_creatable (v : Version) (x : Genie.Unit) (m : Genie.Creatable) (hx : Genie.Unit.WF v x) (hg : x.creatable = some m) :
    Splits (fun _ => True) (fun y => Unit.layout v { x with creatable := some y }) (Creatable.layout v) := by
  have hc := hx.creatable.1.2 (by rw [hg]; rfl)
  simp only [Unit.layout_eq]
  walk (Splits.partFrom hc)

theorem Slot.splits {a b : Node} (s : Slot a b) (v : Version) (x : a.Obj) (m : b.Obj) (hx : a.WF v x) (hs : s.Stored v)
    (hg : s.get x = some m) : Splits (s.Fixes x) (fun y => a.layout v (s.set x y)) (b.layout v) := by
  have g := (s.good v x m hx hs hg).splits
  cases s
  case Unit_creatable => exact Slot.splits_creatable v x m hx hg
  all_goals exact g

theorem Place.splits {a b : Node} (p : Place a b) (v : Version) (x : a.Obj) (m : b.Obj) (hx : a.WF v x) (hs : p.Stored v)
    (hg : p.get x = some m) : Splits (p.Fixes x) (fun y => a.layout v (p.set x y)) (b.layout v) := by
  induction p with
  | here => exact Splits.here
  | step s p ih =>
    simp only [Place.get] at hg
    cases hsg : s.get x with
    | none => rw [hsg] at hg; cases hg
    | some k =>
      rw [hsg] at hg
      obtain ⟨A1, B1, h1⟩ := s.splits v x k hx hs.1 hsg
      obtain ⟨A2, B2, h2⟩ := ih k m (s.good v x k hx hs.1 hsg).wf hs.2 hg
      refine ⟨A1 ++ A2, B2 ++ B1, fun y hy => ?_⟩
      simp only [Place.Fixes, hsg] at hy
      have h1 := h1 (p.set k y) hy.2
      have h2 := h2 y hy.1
      simp only [Place.set, hsg] at h1 h2 ⊢
      rw [h1, h2]
      simp only [List.append_assoc]

theorem Slot.fixed {a b : Node} (s : Slot a b) (x : a.Obj) (m y : b.Obj) (hg : s.get x = some m) (h : b.Fixed m y) :
    s.Fixes x y ∧ a.Fixed x (s.set x y) := by
  cases s
  case DatFile_terrain_restrictions n i =>
    exact ⟨Eq.trans (show (TerrainRestriction.passable_buildable_dmg_multiplier y).length = _ from h) (restrictions_get hg).2, trivial⟩
  case TerrainRestriction_terrain_pass_graphics n i => exact ⟨trivial, rfl⟩
  all_goals exact ⟨trivial, trivial⟩

theorem Place.fixed {a b : Node} (p : Place a b) (x : a.Obj) (m y : b.Obj) (hg : p.get x = some m) (h : b.Fixed m y) :
    p.Fixes x y ∧ a.Fixed x (p.set x y) := by
  induction p with
  | here => cases hg; exact ⟨trivial, h⟩
  | step s p ih =>
    simp only [Place.get] at hg
    cases hsg : s.get x with
    | none => rw [hsg] at hg; cases hg
    | some k =>
      rw [hsg] at hg
      obtain ⟨i1, i2⟩ := ih k m y hg h
      obtain ⟨j1, j2⟩ := s.fixed x k (p.set k y) hsg i2
      simp only [Place.Fixes, Place.set, hsg]
      exact ⟨⟨i1, j1⟩, j2⟩

theorem fixed_of_other {n : Node} (h : ∀ k, n ≠ .record (.TerrainRestriction k)) (x y : n.Obj) : n.Fixed x y := by
  unfold Node.Fixed
  split
  · exact absurd rfl (h _)
  · trivial

theorem intFields_fixed (v : Version) (n : Node) : ∀ f ∈ n.intFields v, ∀ x i, n.Fixed x (f.set x i) := by
  by_cases h : ∃ k, n = .record (.TerrainRestriction k)
  · obtain ⟨k, rfl⟩ := h
    exact forall_nil
  · exact fun f _ x i => fixed_of_other (fun k hk => h ⟨k, hk⟩) _ _

theorem elemLists_fixed (v : Version) (n : Node) : ∀ f ∈ n.elemLists v, ∀ x k e, n.Fixed x (f.set x ((f.get x).set k e)) := by
  by_cases h : ∃ k, n = .record (.TerrainRestriction k)
  · obtain ⟨m, rfl⟩ := h
    exact fun f hf x k e => (elemLists_kept v _ f hf (fun hc => by cases hc.1) x k e).fixed
  · exact fun f _ x k e => fixed_of_other (fun k hk => h ⟨k, hk⟩) _ _

end Genie
