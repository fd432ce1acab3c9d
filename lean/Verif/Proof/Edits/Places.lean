import Verif.Proof.Edits.Slots
/-!
# Replacing a record anywhere
-/

namespace Genie
open Layout

/-- What is shown for each place. -/
structure Place.Good (v : Version) {a b : Node} (p : Place a b) (x : a.Obj) (m : b.Obj) : Prop where
  wf : b.WF v m
  self : p.set x m = x
  keeps : p.Keeps x m
  wf_set : ∀ y, b.WF v y → p.Keeps x y → a.WF v (p.set x y)
  get_set : ∀ y, p.Keeps x y → p.get (p.set x y) = some y
  splits : Splits (p.Keeps x) (fun y => a.layout v (p.set x y)) (b.layout v)

theorem Slot.keeps_self {a b : Node} (s : Slot a b) (x : a.Obj) (m : b.Obj) (h : s.get x = some m) : s.Keeps x m := by
  cases s
  case Unit_creatable =>
    have h : Unit.creatable x = some m := h
    show (Creatable.train_locations m).head?.map (·.hot_key_id) = ((Unit.creatable x).bind (·.train_locations.head?)).map (·.hot_key_id)
    rw [h]; rfl
  case DatFile_terrain_restrictions n i => exact (restrictions_get h).2
  all_goals trivial

theorem Place.good {a b : Node} (p : Place a b) (v : Version) (x : a.Obj) (m : b.Obj) (hx : a.WF v x) (hs : p.Stored v)
    (hg : p.get x = some m) : p.Good v x m := by
  induction p with
  | here =>
    cases hg
    exact { wf := hx, self := rfl, keeps := trivial, wf_set := fun y hy _ => hy, get_set := fun _ _ => rfl, splits := Splits.here }
  | step s p ih =>
    simp only [Place.get] at hg
    cases hsg : s.get x with
    | none => rw [hsg] at hg; cases hg
    | some k =>
      rw [hsg] at hg
      have g1 := s.good v x k hx hs.1 hsg
      have g2 := ih k m g1.wf hs.2 hg
      have e : ∀ y, (Place.step s p).set x y = s.set x (p.set k y) := fun y => by simp only [Place.set, hsg]
      have ek : ∀ y, (Place.step s p).Keeps x y ↔ p.Keeps k y ∧ s.Keeps x (p.set k y) := fun y => by simp only [Place.Keeps, hsg]
      refine { wf := g2.wf, self := ?_, keeps := ?_, wf_set := ?_, get_set := ?_, splits := ?_ }
      · rw [e, g2.self, g1.self]
      · rw [ek, g2.self]; exact ⟨g2.keeps, s.keeps_self x k hsg⟩
      · intro y hy hk
        rw [ek] at hk
        rw [e]
        exact g1.wf_set _ (g2.wf_set y hy hk.1) hk.2
      · intro y hk
        rw [ek] at hk
        rw [e]
        simp only [Place.get, g1.get_set _ hk.2, Option.bind_some]
        exact g2.get_set y hk.1
      · obtain ⟨A1, B1, h1⟩ := g1.splits
        obtain ⟨A2, B2, h2⟩ := g2.splits
        refine ⟨A1 ++ A2, B2 ++ B1, fun y hy => ?_⟩
        have hk := (ek y).1 hy
        have h1 := h1 (p.set k y) hk.2
        have h2 := h2 y hk.1
        simp only at h1 h2 ⊢
        rw [e, h1, h2]
        simp only [List.append_assoc]

end Genie
