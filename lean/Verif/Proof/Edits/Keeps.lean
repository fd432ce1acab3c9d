import Verif.Proof.Edits.Core
/-! # When an edit does not affect anything outside its place -/

namespace Genie
open Layout

theorem Slot.kept {a b : Node} (s : Slot a b) (x : a.Obj) (m y : b.Obj)(hg : s.get x = some m)
    (h : b.Kept m y) : s.Keeps x y ∧ a.Kept x (s.set x y) := by
  cases s
  case Unit_creatable =>
    have hg : Unit.creatable x = some m := hg
    refine ⟨?_, trivial⟩
    show (Creatable.train_locations y).head?.map (·.hot_key_id) = ((Unit.creatable x).bind (·.train_locations.head?)).map (·.hot_key_id)
    rw [hg]; exact h
  case DatFile_terrain_restrictions n i =>
    exact ⟨Eq.trans (show (TerrainRestriction.passable_buildable_dmg_multiplier y).length = _ from h) (restrictions_get hg).2, trivial⟩
  case TerrainRestriction_terrain_pass_graphics n i => exact ⟨trivial, rfl⟩
  case Creatable_train_locations i =>
    refine ⟨trivial, ?_⟩
    have hg : (Creatable.train_locations x)[i]? = some m := hg
    have h : TrainLocation.hot_key_id y = TrainLocation.hot_key_id m := h
    show ((Creatable.train_locations x).set i y).head?.map (·.hot_key_id) = (Creatable.train_locations x).head?.map (·.hot_key_id)
    cases hl : Creatable.train_locations x with
    | nil => rw [hl] at hg; cases hg
    | cons t ts =>
      cases i with
      | zero => rw [hl] at hg; cases hg; simp [h]
      | succ i => simp
  case Creatable_resource_costs i => exact ⟨trivial, rfl⟩
  all_goals exact ⟨trivial, trivial⟩

theorem Place.kept {a b : Node} (p : Place a b) (x : a.Obj) (m y : b.Obj) (hg : p.get x = some m) (h : b.Kept m y) : p.Keeps x y ∧ a.Kept x (p.set x y) := by
  induction p with
  | here => cases hg; exact ⟨trivial, h⟩
  | step s p ih =>
    simp only [Place.get] at hg
    cases hsg : s.get x with
    | none => rw [hsg] at hg; cases hg
    | some k =>
      rw [hsg] at hg
      obtain ⟨i1, i2⟩ := ih k m y hg h
      obtain ⟨j1, j2⟩ := s.kept x k (p.set k y) hsg i2
      simp only [Place.Keeps, Place.set, hsg]
      exact ⟨⟨i1, j1⟩, j2⟩

/-- A node that nothing around it depends on. -/
def Node.Plain (n : Node) : Prop := n ≠ .record .TrainLocation ∧ n ≠ .record .Creatable ∧ ∀ k, n ≠ .record (.TerrainRestriction k)

theorem kept_of_plain {n : Node} (h : n.Plain) (x y : n.Obj) : n.Kept x y := by
  unfold Node.Kept
  split
  · exact absurd rfl h.1
  · exact absurd rfl h.2.1
  · exact absurd rfl (h.2.2 _)
  · trivial

theorem node_cases (n : Node) : n.Plain ∨ n = .record .TrainLocation ∨ n = .record .Creatable ∨ ∃ k, n = .record (.TerrainRestriction k) := by
  by_cases h1 : n = .record .TrainLocation
  · exact .inr (.inl h1)
  · by_cases h2 : n = .record .Creatable
    · exact .inr (.inr (.inl h2))
    · by_cases h3 : ∃ k, n = .record (.TerrainRestriction k)
      · exact .inr (.inr (.inr h3))
      · exact .inl ⟨h1, h2, fun k hk => h3 ⟨k, hk⟩⟩

theorem creatable_kept {x y : Creatable} (h : y.train_locations = x.train_locations) : Node.Kept (.record .Creatable) x y := by
  show y.train_locations.head?.map _ = x.train_locations.head?.map _
  rw [h]

theorem intFields_kept (v : Version) (n : Node) : ∀ f ∈ n.intFields v, ¬ (n = .record .TrainLocation ∧ f.name = "hot_key_id") →
    ∀ x i, n.Kept x (f.set x i) := by
  rcases node_cases n with h | rfl | rfl | ⟨k, rfl⟩
  · exact fun f _ _ x i => kept_of_plain h _ _
  · exact forall_append (forall_cons (fun _ _ _ => rfl) (forall_cons (fun _ _ _ => rfl) (forall_cons (fun _ _ _ => rfl) forall_nil)))
      (forall_ite fun _ => forall_cons (fun h => absurd ⟨rfl, rfl⟩ h) forall_nil)
  · have : ∀ f ∈ Node.intFields v (.record .Creatable), ∀ x i, (f.set x i).train_locations = (show Creatable from x).train_locations := by
      refine forall_append ?_ (forall_ite fun _ => ?_) <;> repeat (first | exact forall_nil | refine forall_cons (fun _ _ => rfl) ?_)
    exact fun f hf _ x i => creatable_kept (this f hf x i)
  · exact forall_nil

theorem floatFields_kept (v : Version) (n : Node) : ∀ f ∈ n.floatFields v, ∀ x i, n.Kept x (f.set x i) := by
  rcases node_cases n with h | rfl | rfl | ⟨k, rfl⟩
  · exact fun f _ x i => kept_of_plain h _ _
  · exact forall_nil
  · have : ∀ f ∈ Node.floatFields v (.record .Creatable), ∀ x i, (f.set x i).train_locations = (show Creatable from x).train_locations := by
      refine forall_append ?_ (forall_ite fun _ => ?_) <;> repeat (first | exact forall_nil | refine forall_cons (fun _ _ => rfl) ?_)
    exact fun f hf x i => creatable_kept (this f hf x i)
  · exact forall_nil

theorem textFields_kept (v : Version) (n : Node) : ∀ f ∈ n.textFields v, ∀ x i, n.Kept x (f.set x i) := by
  rcases node_cases n with h | rfl | rfl | ⟨k, rfl⟩
  · exact fun f _ x i => kept_of_plain h _ _
  all_goals exact forall_nil

theorem fixedLists_kept (v : Version) (n : Node) : ∀ f ∈ n.fixedLists v, ∀ x l, n.Kept x (f.2.set x l) := by
  rcases node_cases n with h | rfl | rfl | ⟨k, rfl⟩
  · exact fun f _ x i => kept_of_plain h _ _
  · exact forall_nil
  · exact forall_cons (fun _ _ => creatable_kept rfl) forall_nil
  · exact forall_nil

theorem slotLists_kept (v : Version) (n : Node) : ∀ f ∈ n.slotLists v, ∀ x l, n.Kept x (f.2.set x l) := by
  rcases node_cases n with h | rfl | rfl | ⟨k, rfl⟩
  · exact fun f _ x i => kept_of_plain h _ _
  all_goals exact forall_nil

theorem countedLists_kept (v : Version) (n : Node) : ∀ f ∈ n.countedLists v, n ≠ .record .Creatable → ∀ x l, n.Kept x (f.2.set x l) := by
  rcases node_cases n with h | rfl | rfl | ⟨k, rfl⟩
  · exact fun f _ _ x i => kept_of_plain h _ _
  · exact forall_nil
  · exact fun f _ h => absurd rfl h
  · exact forall_nil

end Genie
