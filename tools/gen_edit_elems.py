"""Generates the middle of lean/Verif/Proof/Edits/Elems.lean: elements of the struct-packed lists."""
P='/verif/lean/Verif/Proof/Edits/Elems.lean'
head=open(P).read().split('theorem Unit.elems')[0].split('-- generated')[0]
o=head+'-- generated by tools/gen_edit_elems.py\n'
U=[('standing_graphic','s'),('placement_side_terrain','p'),('placement_terrain','q'),('clearance_size','c')]
for f,a in U:
    o+=f'''theorem Unit.elem_{f} (v : Version) : ∀ f, f = Unit.listOf_{f} → f.ElemOK (.record .Unit) v := by
  rintro f rfl
  refine {{ self := fun _ => rfl, old := fun x hx => (Unit.WF.{f} hx).2, wf := fun x hx k e he => ?_, splits := fun x hx k hk => ?_ }}
  · have hx : Unit.WF v x := hx
    exact {{ hx with {f} := hx.{f}.set he k }}
  · have hx : Unit.WF v x := hx
    obtain ⟨s0, s1, hs⟩ := Exactly.two hx.standing_graphic
    obtain ⟨p0, p1, hp⟩ := Exactly.two hx.placement_side_terrain
    obtain ⟨q0, q1, hq⟩ := Exactly.two hx.placement_terrain
    obtain ⟨c0, c1, hc⟩ := Exactly.two hx.clearance_size
    show Splits _ (fun e => Unit.layout v {{ x with {f} := x.{f}.set k e }}) _
    have hk : k < x.{f}.length := hk
    rw [h{a}] at hk ⊢
    match k, hk with
'''
    for k in (0,1):
        vals={b:[b+'0',b+'1'] for _,b in U}
        vals[a][k]='e'
        args=' '.join(x for _,b in U for x in vals[b])
        hyp=' '.join('rfl' if b==a else 'h'+b for _,b in U)
        o+=f'''    | {k}, _ =>
      by_cases hv : 88 ≤ v.num
      · refine Splits.congr ?_ (fun e _ => Unit.layout_flat88 v {{ x with {f} := [{', '.join(vals[a])}] }} {args} {hyp} hv)
        dsimp only
        walk Splits.here
      · refine Splits.congr ?_ (fun e _ => Unit.layout_flat84 v {{ x with {f} := [{', '.join(vals[a])}] }} {args} {hyp} hv)
        dsimp only
        walk Splits.here
'''
    o+='\n'
o=o.replace('''(v : Version) : ∀ f, f = Unit.listOf_''','@@')
import re
TY={'clearance_size':('PyFloat','fun i => [.packed .f (.float i)]','IsF32')}
for f,a in U:
    el,it,ok=TY.get(f,('Int','fun i => [.packed .h (.int i)]','IsI16'))
    o=o.replace(f'@@{f} → f.ElemOK (.record .Unit) v := by\n  rintro f rfl\n',f'(v : Version) : ListField.ElemOK (.record .Unit) v ⟨"{f}", {el}, fun (x : Genie.Unit) => x.{f}, fun x l => {{ x with {f} := l }}, {it}, {ok}⟩ := by\n')
o+='''theorem Unit.elems (v : Version) : ∀ f ∈ Node.otherLists v (.record .Unit), f.ElemOK (.record .Unit) v :=
  forall_cons (Unit.elem_standing_graphic v) (forall_cons (Unit.elem_placement_side_terrain v) (forall_cons (Unit.elem_placement_terrain v)
    (forall_cons (Unit.elem_clearance_size v) forall_nil)))

theorem Creatable.elems (v : Version) : ∀ f ∈ Node.otherLists v (.record .Creatable), f.ElemOK (.record .Creatable) v := by
  refine forall_cons ?_ forall_nil
  refine { self := fun _ => rfl, old := fun x hx => ?_, wf := fun x hx k e he => ?_, splits := fun x hx k hk => ?_ }
  · obtain ⟨hk, hx⟩ : ∃ hk, Creatable.WFWith v hk x := hx
    exact hx.projectile_spawning_area.2
  · obtain ⟨hk, hx⟩ : ∃ hk, Creatable.WFWith v hk x := hx
    exact ⟨hk, { hx with projectile_spawning_area := hx.projectile_spawning_area.set he k }⟩
  · obtain ⟨hk', hx⟩ : ∃ hk, Creatable.WFWith v hk x := hx
    obtain ⟨a0, a1, a2, ha⟩ := Exactly.three hx.projectile_spawning_area
    show Splits _ (fun e => Creatable.layout v { x with projectile_spawning_area := x.projectile_spawning_area.set k e }) _
    have hk : k < x.projectile_spawning_area.length := hk
    rw [ha] at hk ⊢
    match k, hk with
'''
for k in range(3):
    v=['a0','a1','a2']; v[k]='e'
    L=', '.join(v); S=' '.join(v)
    o+=f'''    | {k}, _ =>
      by_cases hv : 88 ≤ v.num
      · refine Splits.congr ?_ (fun e _ => Creatable.layout_flat88 v {{ x with projectile_spawning_area := [{L}] }} {S} rfl hv)
        dsimp only
        walk Splits.here
      · obtain ⟨t, ht, -⟩ := hx.train_locations.of_lt' hv
        by_cases hw : 84 ≤ v.num
        · refine Splits.congr ?_ (fun e _ => Creatable.layout_flat84 v {{ x with projectile_spawning_area := [{L}] }} {S} rfl hv hw t ht)
          dsimp only
          walk Splits.here
        · refine Splits.congr ?_ (fun e _ => Creatable.layout_flat77 v {{ x with projectile_spawning_area := [{L}] }} {S} rfl hv hw t ht)
          dsimp only
          walk Splits.here
'''
o+='''
theorem Building.elems (v : Version) : ∀ f ∈ Node.otherLists v (.record .Building), f.ElemOK (.record .Building) v := by
  refine forall_cons ?_ forall_nil
  refine { self := fun _ => rfl, old := fun x hx => (Building.WF.looting_table hx).2, wf := fun x hx k e he => ?_, splits := fun x hx k hk => ?_ }
  · have hx : Building.WF v x := hx
    exact { hx with looting_table := hx.looting_table.set he k }
  · have hx : Building.WF v x := hx
    obtain ⟨l0, l1, l2, l3, l4, l5, hl⟩ := Exactly.six hx.looting_table
    show Splits _ (fun e => Building.layout v { x with looting_table := x.looting_table.set k e }) _
    have hk : k < x.looting_table.length := hk
    rw [hl] at hk ⊢
    match k, hk with
'''
for k in range(6):
    v=[f'l{i}' for i in range(6)]; v[k]='e'
    o+=f'''    | {k}, _ =>
      refine Splits.congr ?_ (fun e _ => Building.layout_flat v {{ x with looting_table := [{', '.join(v)}] }} {' '.join(v)} rfl)
      dsimp only
      walk Splits.here
'''
o+='''
theorem TerrainRestriction.elems (v : Version) (n : Nat) : ∀ f ∈ Node.otherLists v (.record (.TerrainRestriction n)), f.ElemOK (.record (.TerrainRestriction n)) v := by
  refine forall_cons ?_ forall_nil
  refine { self := fun _ => rfl, old := fun x hx => (TerrainRestriction.WF.passable_buildable_dmg_multiplier hx).2, wf := fun x hx k e he => ?_, splits := fun x hx k hk => ?_ }
  · have hx : TerrainRestriction.WF v n x := hx
    exact { hx with passable_buildable_dmg_multiplier := hx.passable_buildable_dmg_multiplier.set he k }
  · have hk : k < x.passable_buildable_dmg_multiplier.length := hk
    show Splits _ (fun e => TerrainRestriction.layout v { x with passable_buildable_dmg_multiplier := x.passable_buildable_dmg_multiplier.set k e }) _
    unfold TerrainRestriction.layout
    apply Splits.tailP (a0 := requires (x.passable_buildable_dmg_multiplier.length = x.terrain_pass_graphics.length) .assertionError) (fun _ _ => by simp only [List.length_set])
    dsimp only
    walk (Splits.elem (List.getElem?_eq_getElem hk))

theorem DatFile.elems (v : Version) : ∀ f ∈ Node.otherLists v .file, f.ElemOK .file v := by
  refine forall_cons ?_ (forall_cons ?_ forall_nil)
  · refine { self := fun _ => rfl, old := fun x hx => (DatFile.WFAt.float_ptr_terrain_tables hx).2, wf := fun x hx k e he => ?_, splits := fun x hx k hk => ?_ }
    · have hx : DatFile.WFAt v x := hx
      exact { hx with float_ptr_terrain_tables := hx.float_ptr_terrain_tables.set he k }
    · have hk : k < x.float_ptr_terrain_tables.length := hk
      show Splits _ (fun e => DatFile.layoutAt v { x with float_ptr_terrain_tables := x.float_ptr_terrain_tables.set k e }) _
      simp only [DatFile.layout_eq]
      apply Splits.tailP (a0 := sameLen x.float_ptr_terrain_tables x.terrain_pass_graphic_pointers) (fun _ _ => by simp only [sameLen, List.length_set])
      walk (Splits.elem (List.getElem?_eq_getElem hk))
  · refine { self := fun _ => rfl, old := fun x hx => (DatFile.WFAt.terrain_pass_graphic_pointers hx).2, wf := fun x hx k e he => ?_, splits := fun x hx k hk => ?_ }
    · have hx : DatFile.WFAt v x := hx
      exact { hx with terrain_pass_graphic_pointers := hx.terrain_pass_graphic_pointers.set he k }
    · have hk : k < x.terrain_pass_graphic_pointers.length := hk
      show Splits _ (fun e => DatFile.layoutAt v { x with terrain_pass_graphic_pointers := x.terrain_pass_graphic_pointers.set k e }) _
      simp only [DatFile.layout_eq]
      apply Splits.tailP (a0 := sameLen x.float_ptr_terrain_tables x.terrain_pass_graphic_pointers) (fun _ _ => by simp only [sameLen, List.length_set])
      apply Splits.tailP (a0 := sameLen x.terrain_pass_graphic_pointers x.terrain_restrictions) (fun _ _ => by simp only [sameLen, List.length_set])
      walk (Splits.elem (List.getElem?_eq_getElem hk))

theorem Node.otherLists_ok (v : Version) (n : Node) : ∀ f ∈ n.otherLists v, f.ElemOK n v := by
  unfold Node.otherLists
  split
  · exact Unit.elems v
  · exact Creatable.elems v
  · exact Building.elems v
  · exact TerrainRestriction.elems v _
  · exact DatFile.elems v
  · exact forall_nil

theorem Node.elemLists_ok (v : Version) (n : Node) : ∀ f ∈ n.elemLists v, f.ElemOK n v := by
  refine forall_append (forall_append ?_ ?_) (Node.otherLists_ok v n)
  · intro f hf
    obtain ⟨g, hg, rfl⟩ := List.mem_map.1 hf
    exact (Node.fixedLists_ok v n g hg).elem
  · intro f hf
    obtain ⟨g, hg, rfl⟩ := List.mem_map.1 hf
    exact (Node.countedLists_ok v n g hg).elem

theorem elemLists_kept (v : Version) (n : Node) : ∀ f ∈ n.elemLists v, ¬ (n = .record .Creatable ∧ f.name = "train_locations") →
    ∀ x k e, n.Kept x (f.set x ((f.get x).set k e)) := by
  refine forall_append (forall_append ?_ ?_) ?_
  · intro f hf _ x k e
    obtain ⟨g, hg, rfl⟩ := List.mem_map.1 hf
    exact fixedLists_kept v n g hg x _
  · intro f hf hn x k e
    obtain ⟨g, hg, rfl⟩ := List.mem_map.1 hf
    refine countedLists_kept v n g hg (fun hc => ?_) x _
    subst hc
    refine hn ⟨rfl, ?_⟩
    have : ∀ g ∈ Node.countedLists v (.record .Creatable), g.2.name = "train_locations" := forall_append forall_nil (forall_ite fun _ => forall_cons rfl forall_nil)
    exact this g hg
  · rcases node_cases n with h | rfl | rfl | ⟨m, rfl⟩
    · exact fun f _ _ x k e => kept_of_plain h _ _
    · exact forall_nil
    · exact forall_cons (fun _ _ _ _ => creatable_kept rfl) forall_nil
    · exact forall_cons (fun _ _ _ _ => List.length_set) forall_nil

end Genie
'''
open(P,'w').write(o)
