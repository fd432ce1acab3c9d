import Verif.Spec.EditElems
import Verif.Proof.Edits.Keeps
/-! # Editing one element of a list -/

namespace Genie
open Layout

structure ListField.ElemOK (n : Node) (v : Version) (f : ListField n.Obj) : Prop where
  self : ∀ x, f.set x (f.get x) = x
  old : ∀ x, n.WF v x → AllOf f.ok (f.get x)
  wf : ∀ x, n.WF v x → ∀ k e, f.ok e → n.WF v (f.set x ((f.get x).set k e))
  splits : ∀ x, n.WF v x → ∀ k, k < (f.get x).length → Splits (fun _ => True) (fun e => n.layout v (f.set x ((f.get x).set k e))) f.items

theorem Splits.comp {P : β → Prop} {Q : γ → Prop} {g : β → List Item} {f : β → List Item} {h : γ → β} {f' : γ → List Item}
    (h1 : Splits P g f) (h2 : Splits Q (fun c => f (h c)) f') (hp : ∀ c, Q c → P (h c)) : Splits Q (fun c => g (h c)) f' := by
  obtain ⟨A, B, h1⟩ := h1
  obtain ⟨C, D, h2⟩ := h2
  refine ⟨A ++ C, D ++ B, fun c hc => ?_⟩
  have := h2 c hc
  dsimp only at this ⊢
  rw [h1 _ (hp c hc), this]
  simp only [List.append_assoc]

theorem ListField.FixedOK.elem {n : Node} {v : Version} {len : Nat} {f : ListField n.Obj} (h : f.FixedOK n v len) : f.ElemOK n v where
  self := h.self
  old x hx := (h.old x hx).2
  wf x hx k e he := (h.wf x hx _ ((h.old x hx).2.set he k)).2 (by rw [List.length_set]; exact (h.old x hx).1)
  splits x hx k hk := (h.splits x hx).comp (h := fun e => (f.get x).set k e) (Splits.elem (List.getElem?_eq_getElem hk)) (fun _ _ => trivial)

theorem ListField.CountedOK.elem {n : Node} {v : Version} {len : Nat} {f : ListField n.Obj} (h : f.CountedOK n v len) : f.ElemOK n v where
  self := h.self
  old x hx := (h.old x hx).2
  wf x hx k e he := (h.wf x hx _).2 ((h.old x hx).set he k)
  splits x hx k hk := (h.splits x hx).comp (h := fun e => (f.get x).set k e) (Splits.elem (List.getElem?_eq_getElem hk)) (fun _ _ => List.length_set)

-- generated by tools/gen_edit_elems.py
theorem Unit.elem_standing_graphic (v : Version) : ListField.ElemOK (.record .Unit) v ⟨"standing_graphic", Int, fun (x : Genie.Unit) => x.standing_graphic, fun x l => { x with standing_graphic := l }, fun i => [.packed .h (.int i)], IsI16⟩ := by
  refine { self := fun _ => rfl, old := fun x hx => (Unit.WF.standing_graphic hx).2, wf := fun x hx k e he => ?_, splits := fun x hx k hk => ?_ }
  · have hx : Unit.WF v x := hx
    exact { hx with standing_graphic := hx.standing_graphic.set he k }
  · have hx : Unit.WF v x := hx
    obtain ⟨s0, s1, hs⟩ := Exactly.two hx.standing_graphic
    obtain ⟨p0, p1, hp⟩ := Exactly.two hx.placement_side_terrain
    obtain ⟨q0, q1, hq⟩ := Exactly.two hx.placement_terrain
    obtain ⟨c0, c1, hc⟩ := Exactly.two hx.clearance_size
    show Splits _ (fun e => Unit.layout v { x with standing_graphic := x.standing_graphic.set k e }) _
    have hk : k < x.standing_graphic.length := hk
    rw [hs] at hk ⊢
    match k, hk with
    | 0, _ =>
      by_cases hv : 88 ≤ v.num
      · refine Splits.congr ?_ (fun e _ => Unit.layout_flat88 v { x with standing_graphic := [e, s1] } e s1 p0 p1 q0 q1 c0 c1 rfl hp hq hc hv)
        dsimp only
        walk Splits.here
      · refine Splits.congr ?_ (fun e _ => Unit.layout_flat84 v { x with standing_graphic := [e, s1] } e s1 p0 p1 q0 q1 c0 c1 rfl hp hq hc hv)
        dsimp only
        walk Splits.here
    | 1, _ =>
      by_cases hv : 88 ≤ v.num
      · refine Splits.congr ?_ (fun e _ => Unit.layout_flat88 v { x with standing_graphic := [s0, e] } s0 e p0 p1 q0 q1 c0 c1 rfl hp hq hc hv)
        dsimp only
        walk Splits.here
      · refine Splits.congr ?_ (fun e _ => Unit.layout_flat84 v { x with standing_graphic := [s0, e] } s0 e p0 p1 q0 q1 c0 c1 rfl hp hq hc hv)
        dsimp only
        walk Splits.here

theorem Unit.elem_placement_side_terrain (v : Version) : ListField.ElemOK (.record .Unit) v ⟨"placement_side_terrain", Int, fun (x : Genie.Unit) => x.placement_side_terrain, fun x l => { x with placement_side_terrain := l }, fun i => [.packed .h (.int i)], IsI16⟩ := by
  refine { self := fun _ => rfl, old := fun x hx => (Unit.WF.placement_side_terrain hx).2, wf := fun x hx k e he => ?_, splits := fun x hx k hk => ?_ }
  · have hx : Unit.WF v x := hx
    exact { hx with placement_side_terrain := hx.placement_side_terrain.set he k }
  · have hx : Unit.WF v x := hx
    obtain ⟨s0, s1, hs⟩ := Exactly.two hx.standing_graphic
    obtain ⟨p0, p1, hp⟩ := Exactly.two hx.placement_side_terrain
    obtain ⟨q0, q1, hq⟩ := Exactly.two hx.placement_terrain
    obtain ⟨c0, c1, hc⟩ := Exactly.two hx.clearance_size
    show Splits _ (fun e => Unit.layout v { x with placement_side_terrain := x.placement_side_terrain.set k e }) _
    have hk : k < x.placement_side_terrain.length := hk
    rw [hp] at hk ⊢
    match k, hk with
    | 0, _ =>
      by_cases hv : 88 ≤ v.num
      · refine Splits.congr ?_ (fun e _ => Unit.layout_flat88 v { x with placement_side_terrain := [e, p1] } s0 s1 e p1 q0 q1 c0 c1 hs rfl hq hc hv)
        dsimp only
        walk Splits.here
      · refine Splits.congr ?_ (fun e _ => Unit.layout_flat84 v { x with placement_side_terrain := [e, p1] } s0 s1 e p1 q0 q1 c0 c1 hs rfl hq hc hv)
        dsimp only
        walk Splits.here
    | 1, _ =>
      by_cases hv : 88 ≤ v.num
      · refine Splits.congr ?_ (fun e _ => Unit.layout_flat88 v { x with placement_side_terrain := [p0, e] } s0 s1 p0 e q0 q1 c0 c1 hs rfl hq hc hv)
        dsimp only
        walk Splits.here
      · refine Splits.congr ?_ (fun e _ => Unit.layout_flat84 v { x with placement_side_terrain := [p0, e] } s0 s1 p0 e q0 q1 c0 c1 hs rfl hq hc hv)
        dsimp only
        walk Splits.here

theorem Unit.elem_placement_terrain (v : Version) : ListField.ElemOK (.record .Unit) v ⟨"placement_terrain", Int, fun (x : Genie.Unit) => x.placement_terrain, fun x l => { x with placement_terrain := l }, fun i => [.packed .h (.int i)], IsI16⟩ := by
  refine { self := fun _ => rfl, old := fun x hx => (Unit.WF.placement_terrain hx).2, wf := fun x hx k e he => ?_, splits := fun x hx k hk => ?_ }
  · have hx : Unit.WF v x := hx
    exact { hx with placement_terrain := hx.placement_terrain.set he k }
  · have hx : Unit.WF v x := hx
    obtain ⟨s0, s1, hs⟩ := Exactly.two hx.standing_graphic
    obtain ⟨p0, p1, hp⟩ := Exactly.two hx.placement_side_terrain
    obtain ⟨q0, q1, hq⟩ := Exactly.two hx.placement_terrain
    obtain ⟨c0, c1, hc⟩ := Exactly.two hx.clearance_size
    show Splits _ (fun e => Unit.layout v { x with placement_terrain := x.placement_terrain.set k e }) _
    have hk : k < x.placement_terrain.length := hk
    rw [hq] at hk ⊢
    match k, hk with
    | 0, _ =>
      by_cases hv : 88 ≤ v.num
      · refine Splits.congr ?_ (fun e _ => Unit.layout_flat88 v { x with placement_terrain := [e, q1] } s0 s1 p0 p1 e q1 c0 c1 hs hp rfl hc hv)
        dsimp only
        walk Splits.here
      · refine Splits.congr ?_ (fun e _ => Unit.layout_flat84 v { x with placement_terrain := [e, q1] } s0 s1 p0 p1 e q1 c0 c1 hs hp rfl hc hv)
        dsimp only
        walk Splits.here
    | 1, _ =>
      by_cases hv : 88 ≤ v.num
      · refine Splits.congr ?_ (fun e _ => Unit.layout_flat88 v { x with placement_terrain := [q0, e] } s0 s1 p0 p1 q0 e c0 c1 hs hp rfl hc hv)
        dsimp only
        walk Splits.here
      · refine Splits.congr ?_ (fun e _ => Unit.layout_flat84 v { x with placement_terrain := [q0, e] } s0 s1 p0 p1 q0 e c0 c1 hs hp rfl hc hv)
        dsimp only
        walk Splits.here

theorem Unit.elem_clearance_size (v : Version) : ListField.ElemOK (.record .Unit) v ⟨"clearance_size", PyFloat, fun (x : Genie.Unit) => x.clearance_size, fun x l => { x with clearance_size := l }, fun i => [.packed .f (.float i)], IsF32⟩ := by
  refine { self := fun _ => rfl, old := fun x hx => (Unit.WF.clearance_size hx).2, wf := fun x hx k e he => ?_, splits := fun x hx k hk => ?_ }
  · have hx : Unit.WF v x := hx
    exact { hx with clearance_size := hx.clearance_size.set he k }
  · have hx : Unit.WF v x := hx
    obtain ⟨s0, s1, hs⟩ := Exactly.two hx.standing_graphic
    obtain ⟨p0, p1, hp⟩ := Exactly.two hx.placement_side_terrain
    obtain ⟨q0, q1, hq⟩ := Exactly.two hx.placement_terrain
    obtain ⟨c0, c1, hc⟩ := Exactly.two hx.clearance_size
    show Splits _ (fun e => Unit.layout v { x with clearance_size := x.clearance_size.set k e }) _
    have hk : k < x.clearance_size.length := hk
    rw [hc] at hk ⊢
    match k, hk with
    | 0, _ =>
      by_cases hv : 88 ≤ v.num
      · refine Splits.congr ?_ (fun e _ => Unit.layout_flat88 v { x with clearance_size := [e, c1] } s0 s1 p0 p1 q0 q1 e c1 hs hp hq rfl hv)
        dsimp only
        walk Splits.here
      · refine Splits.congr ?_ (fun e _ => Unit.layout_flat84 v { x with clearance_size := [e, c1] } s0 s1 p0 p1 q0 q1 e c1 hs hp hq rfl hv)
        dsimp only
        walk Splits.here
    | 1, _ =>
      by_cases hv : 88 ≤ v.num
      · refine Splits.congr ?_ (fun e _ => Unit.layout_flat88 v { x with clearance_size := [c0, e] } s0 s1 p0 p1 q0 q1 c0 e hs hp hq rfl hv)
        dsimp only
        walk Splits.here
      · refine Splits.congr ?_ (fun e _ => Unit.layout_flat84 v { x with clearance_size := [c0, e] } s0 s1 p0 p1 q0 q1 c0 e hs hp hq rfl hv)
        dsimp only
        walk Splits.here

theorem Unit.elems (v : Version) : ∀ f ∈ Node.otherLists v (.record .Unit), f.ElemOK (.record .Unit) v :=
  forall_cons (Unit.elem_standing_graphic v) (forall_cons (Unit.elem_placement_side_terrain v) (forall_cons (Unit.elem_placement_terrain v)
    (forall_cons (Unit.elem_clearance_size v) forall_nil)))

theorem Creatable.elems (v : Version) : ∀ f ∈ Node.otherLists v (.record .Creatable), f.ElemOK (.record .Creatable) v := by
  refine forall_cons ?_ forall_nil
  refine { self := fun _ => rfl, old := fun x hx => ?_, wf := fun x hx k e he => ?_, splits := fun x hx k hk => ?_ }
  · obtain ⟨hk, hx⟩ : ∃ hk, Creatable.WFWith v hk x := hx
    exact hx.projectile_spawning_area.2
  · obtain ⟨hk, hx⟩ : ∃ hk, Creatable.WFWith v hk x := hx
    exact ⟨hk, { hx with projectile_spawning_area := hx.projectile_spawning_area.set he k }⟩
  · obtain ⟨hk', hx⟩ : ∃ hk, Creatable.WFWith v hk x := hx
    obtain ⟨a0, a1, a2, ha⟩ := Exactly.three hx.projectile_spawning_area
    show Splits _ (fun e => Creatable.layout v { x with projectile_spawning_area := x.projectile_spawning_area.set k e }) _
    have hk : k < x.projectile_spawning_area.length := hk
    rw [ha] at hk ⊢
    match k, hk with
    | 0, _ =>
      by_cases hv : 88 ≤ v.num
      · refine Splits.congr ?_ (fun e _ => Creatable.layout_flat88 v { x with projectile_spawning_area := [e, a1, a2] } e a1 a2 rfl hv)
        dsimp only
        walk Splits.here
      · obtain ⟨t, ht, -⟩ := hx.train_locations.of_lt' hv
        by_cases hw : 84 ≤ v.num
        · refine Splits.congr ?_ (fun e _ => Creatable.layout_flat84 v { x with projectile_spawning_area := [e, a1, a2] } e a1 a2 rfl hv hw t ht)
          dsimp only
          walk Splits.here
        · refine Splits.congr ?_ (fun e _ => Creatable.layout_flat77 v { x with projectile_spawning_area := [e, a1, a2] } e a1 a2 rfl hv hw t ht)
          dsimp only
          walk Splits.here
    | 1, _ =>
      by_cases hv : 88 ≤ v.num
      · refine Splits.congr ?_ (fun e _ => Creatable.layout_flat88 v { x with projectile_spawning_area := [a0, e, a2] } a0 e a2 rfl hv)
        dsimp only
        walk Splits.here
      · obtain ⟨t, ht, -⟩ := hx.train_locations.of_lt' hv
        by_cases hw : 84 ≤ v.num
        · refine Splits.congr ?_ (fun e _ => Creatable.layout_flat84 v { x with projectile_spawning_area := [a0, e, a2] } a0 e a2 rfl hv hw t ht)
          dsimp only
          walk Splits.here
        · refine Splits.congr ?_ (fun e _ => Creatable.layout_flat77 v { x with projectile_spawning_area := [a0, e, a2] } a0 e a2 rfl hv hw t ht)
          dsimp only
          walk Splits.here
    | 2, _ =>
      by_cases hv : 88 ≤ v.num
      · refine Splits.congr ?_ (fun e _ => Creatable.layout_flat88 v { x with projectile_spawning_area := [a0, a1, e] } a0 a1 e rfl hv)
        dsimp only
        walk Splits.here
      · obtain ⟨t, ht, -⟩ := hx.train_locations.of_lt' hv
        by_cases hw : 84 ≤ v.num
        · refine Splits.congr ?_ (fun e _ => Creatable.layout_flat84 v { x with projectile_spawning_area := [a0, a1, e] } a0 a1 e rfl hv hw t ht)
          dsimp only
          walk Splits.here
        · refine Splits.congr ?_ (fun e _ => Creatable.layout_flat77 v { x with projectile_spawning_area := [a0, a1, e] } a0 a1 e rfl hv hw t ht)
          dsimp only
          walk Splits.here

theorem Building.elems (v : Version) : ∀ f ∈ Node.otherLists v (.record .Building), f.ElemOK (.record .Building) v := by
  refine forall_cons ?_ forall_nil
  refine { self := fun _ => rfl, old := fun x hx => (Building.WF.looting_table hx).2, wf := fun x hx k e he => ?_, splits := fun x hx k hk => ?_ }
  · have hx : Building.WF v x := hx
    exact { hx with looting_table := hx.looting_table.set he k }
  · have hx : Building.WF v x := hx
    obtain ⟨l0, l1, l2, l3, l4, l5, hl⟩ := Exactly.six hx.looting_table
    show Splits _ (fun e => Building.layout v { x with looting_table := x.looting_table.set k e }) _
    have hk : k < x.looting_table.length := hk
    rw [hl] at hk ⊢
    match k, hk with
    | 0, _ =>
      refine Splits.congr ?_ (fun e _ => Building.layout_flat v { x with looting_table := [e, l1, l2, l3, l4, l5] } e l1 l2 l3 l4 l5 rfl)
      dsimp only
      walk Splits.here
    | 1, _ =>
      refine Splits.congr ?_ (fun e _ => Building.layout_flat v { x with looting_table := [l0, e, l2, l3, l4, l5] } l0 e l2 l3 l4 l5 rfl)
      dsimp only
      walk Splits.here
    | 2, _ =>
      refine Splits.congr ?_ (fun e _ => Building.layout_flat v { x with looting_table := [l0, l1, e, l3, l4, l5] } l0 l1 e l3 l4 l5 rfl)
      dsimp only
      walk Splits.here
    | 3, _ =>
      refine Splits.congr ?_ (fun e _ => Building.layout_flat v { x with looting_table := [l0, l1, l2, e, l4, l5] } l0 l1 l2 e l4 l5 rfl)
      dsimp only
      walk Splits.here
    | 4, _ =>
      refine Splits.congr ?_ (fun e _ => Building.layout_flat v { x with looting_table := [l0, l1, l2, l3, e, l5] } l0 l1 l2 l3 e l5 rfl)
      dsimp only
      walk Splits.here
    | 5, _ =>
      refine Splits.congr ?_ (fun e _ => Building.layout_flat v { x with looting_table := [l0, l1, l2, l3, l4, e] } l0 l1 l2 l3 l4 e rfl)
      dsimp only
      walk Splits.here

theorem TerrainRestriction.elems (v : Version) (n : Nat) : ∀ f ∈ Node.otherLists v (.record (.TerrainRestriction n)), f.ElemOK (.record (.TerrainRestriction n)) v := by
  refine forall_cons ?_ forall_nil
  refine { self := fun _ => rfl, old := fun x hx => (TerrainRestriction.WF.passable_buildable_dmg_multiplier hx).2, wf := fun x hx k e he => ?_, splits := fun x hx k hk => ?_ }
  · have hx : TerrainRestriction.WF v n x := hx
    exact { hx with passable_buildable_dmg_multiplier := hx.passable_buildable_dmg_multiplier.set he k }
  · have hk : k < x.passable_buildable_dmg_multiplier.length := hk
    show Splits _ (fun e => TerrainRestriction.layout v { x with passable_buildable_dmg_multiplier := x.passable_buildable_dmg_multiplier.set k e }) _
    unfold TerrainRestriction.layout
    apply Splits.tailP (a0 := requires (x.passable_buildable_dmg_multiplier.length = x.terrain_pass_graphics.length) .assertionError) (fun _ _ => by simp only [List.length_set])
    dsimp only
    walk (Splits.elem (List.getElem?_eq_getElem hk))

theorem DatFile.elems (v : Version) : ∀ f ∈ Node.otherLists v .file, f.ElemOK .file v := by
  refine forall_cons ?_ (forall_cons ?_ forall_nil)
  · refine { self := fun _ => rfl, old := fun x hx => (DatFile.WFAt.float_ptr_terrain_tables hx).2, wf := fun x hx k e he => ?_, splits := fun x hx k hk => ?_ }
    · have hx : DatFile.WFAt v x := hx
      exact { hx with float_ptr_terrain_tables := hx.float_ptr_terrain_tables.set he k }
    · have hk : k < x.float_ptr_terrain_tables.length := hk
      show Splits _ (fun e => DatFile.layoutAt v { x with float_ptr_terrain_tables := x.float_ptr_terrain_tables.set k e }) _
      simp only [DatFile.layout_eq]
      apply Splits.tailP (a0 := sameLen x.float_ptr_terrain_tables x.terrain_pass_graphic_pointers) (fun _ _ => by simp only [sameLen, List.length_set])
      walk (Splits.elem (List.getElem?_eq_getElem hk))
  · refine { self := fun _ => rfl, old := fun x hx => (DatFile.WFAt.terrain_pass_graphic_pointers hx).2, wf := fun x hx k e he => ?_, splits := fun x hx k hk => ?_ }
    · have hx : DatFile.WFAt v x := hx
      exact { hx with terrain_pass_graphic_pointers := hx.terrain_pass_graphic_pointers.set he k }
    · have hk : k < x.terrain_pass_graphic_pointers.length := hk
      show Splits _ (fun e => DatFile.layoutAt v { x with terrain_pass_graphic_pointers := x.terrain_pass_graphic_pointers.set k e }) _
      simp only [DatFile.layout_eq]
      apply Splits.tailP (a0 := sameLen x.float_ptr_terrain_tables x.terrain_pass_graphic_pointers) (fun _ _ => by simp only [sameLen, List.length_set])
      apply Splits.tailP (a0 := sameLen x.terrain_pass_graphic_pointers x.terrain_restrictions) (fun _ _ => by simp only [sameLen, List.length_set])
      walk (Splits.elem (List.getElem?_eq_getElem hk))

theorem Node.otherLists_ok (v : Version) (n : Node) : ∀ f ∈ n.otherLists v, f.ElemOK n v := by
  unfold Node.otherLists
  split
  · exact Unit.elems v
  · exact Creatable.elems v
  · exact Building.elems v
  · exact TerrainRestriction.elems v _
  · exact DatFile.elems v
  · exact forall_nil

theorem Node.elemLists_ok (v : Version) (n : Node) : ∀ f ∈ n.elemLists v, f.ElemOK n v := by
  refine forall_append (forall_append ?_ ?_) (Node.otherLists_ok v n)
  · intro f hf
    obtain ⟨g, hg, rfl⟩ := List.mem_map.1 hf
    exact (Node.fixedLists_ok v n g hg).elem
  · intro f hf
    obtain ⟨g, hg, rfl⟩ := List.mem_map.1 hf
    exact (Node.countedLists_ok v n g hg).elem

theorem elemLists_kept (v : Version) (n : Node) : ∀ f ∈ n.elemLists v, ¬ (n = .record .Creatable ∧ f.name = "train_locations") →
    ∀ x k e, n.Kept x (f.set x ((f.get x).set k e)) := by
  refine forall_append (forall_append ?_ ?_) ?_
  · intro f hf _ x k e
    obtain ⟨g, hg, rfl⟩ := List.mem_map.1 hf
    exact fixedLists_kept v n g hg x _
  · intro f hf hn x k e
    obtain ⟨g, hg, rfl⟩ := List.mem_map.1 hf
    refine countedLists_kept v n g hg (fun hc => ?_) x _
    subst hc
    refine hn ⟨rfl, ?_⟩
    have : ∀ g ∈ Node.countedLists v (.record .Creatable), g.2.name = "train_locations" := forall_append forall_nil (forall_ite fun _ => forall_cons rfl forall_nil)
    exact this g hg
  · rcases node_cases n with h | rfl | rfl | ⟨m, rfl⟩
    · exact fun f _ _ x k e => kept_of_plain h _ _
    · exact forall_nil
    · exact forall_cons (fun _ _ _ _ => creatable_kept rfl) forall_nil
    · exact forall_cons (fun _ _ _ _ => List.length_set) forall_nil

end Genie
