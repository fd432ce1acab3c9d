import Verif.Proof.Header
import Verif.Proof.Records.Terrain
import Verif.Proof.Records.RandomMaps
/-! # Write-read and read-write lemmas: `DatFile` -/

namespace Genie

theorem DatFile.graphic_pointers_eq (x : DatFile) : x.graphic_pointers = slotPointers x.graphics := by
  unfold DatFile.graphic_pointers slotPointers
  congr 1; funext u; cases u <;> rfl

def usedOf : List TerrainRestriction → Int
  | [] => 0
  | r :: _ => r.passable_buildable_dmg_multiplier.length

theorem DatFile.terrains_used_eq (x : DatFile) : x.terrains_used = usedOf x.terrain_restrictions := by
  unfold DatFile.terrains_used usedOf
  cases x.terrain_restrictions <;> rfl

theorem terrains_used_isI16 {v : Version} {n : Nat} {l : List TerrainRestriction}
    (h : AllOf (TerrainRestriction.WF v n) l) (hl : l ≠ []) :
    usedOf l = n := by
  cases l with
  | nil => exact absurd rfl hl
  | cons r rs => simp [usedOf, (h r (by simp)).passable_buildable_dmg_multiplier.1]

theorem Good.restrictions (v : Version) (size n : Int) :
    Good v (readClassArrayWithParam TerrainRestriction.fromBytesWithCount size n)
      (fun l => l.length = size.toNat ∧ AllOf (TerrainRestriction.WF v n.toNat) l)
      (fun l bs => size = l.length ∧ (∀ r ∈ l, n = r.passable_buildable_dmg_multiplier.length) ∧
        writeClassArray TerrainRestriction.toBytes l v = .ok bs) := by
  have h : Good v (TerrainRestriction.fromBytesWithCount n) (TerrainRestriction.WF v n.toNat)
      (fun x bs => (if n = x.passable_buildable_dmg_multiplier.length then TerrainRestriction.toBytes v x
        else .error .typeError) = .ok bs) := by
    refine Good.mono (TerrainRestriction.good v n) (fun _ h => h) ?_
    rintro x bs - ⟨h1, h2⟩
    rw [if_pos h1, h2]
  refine Good.mono (Good.array (w := fun x : TerrainRestriction =>
    if n = x.passable_buildable_dmg_multiplier.length then TerrainRestriction.toBytes v x
        else .error .typeError) size h) (fun _ h => h) ?_
  rintro l bs - ⟨h1, h2⟩
  refine ⟨h1, ?_⟩
  clear h1
  induction l generalizing bs with
  | nil => exact ⟨by simp, h2⟩
  | cons r rs ih =>
    rw [List.map_cons, joinB_cons_eq_ok] at h2
    obtain ⟨b, bs', e1, e2, rfl⟩ := h2
    obtain ⟨i1, i2⟩ := ih bs' e2
    split at e1
    · rename_i hr
      refine ⟨?_, joinB_cons_ok e1 i2⟩
      intro r' hr'
      rcases List.mem_cons.1 hr' with rfl | hr'
      · exact hr
      · exact i1 r' hr'
    · simp at e1

/-- Write then read, for a whole file. -/
theorem DatFile.reads {v : Version} {x : DatFile} (h : DatFile.WFAt v x) :
    ∃ bs, DatFile.toBytes x = .ok bs ∧ ∀ hd : ByteHandler, bs <+: hd.content.drop hd.offset →
      DatFile.fromBytes hd = .ok (x, { hd with offset := hd.offset + bs.length, version := v }) := by
  obtain ⟨x_version, x_float_ptr_terrain_tables, x_terrain_pass_graphic_pointers, x_terrain_restrictions, x_player_colours, x_sounds, x_graphics, x_terrain_block, x_random_maps, x_effects, x_unit_headers, x_civs, x_techs, x_time_slice, x_unit_kill_rate, x_unit_kill_total, x_unit_hit_point_rate, x_unit_hit_point_total, x_razing_kill_rate, x_razing_kill_total, x_tech_tree⟩ := x
  obtain ⟨h_version, h_float_ptr_terrain_tables, h_terrain_pass_graphic_pointers, h_terrain_restrictions, h_player_colours, h_sounds, h_graphics, h_terrain_block, h_random_maps, h_effects, h_unit_headers, h_civs, h_techs, h_time_slice, h_unit_kill_rate, h_unit_kill_total, h_unit_hit_point_rate, h_unit_hit_point_total, h_razing_kill_rate, h_razing_kill_total, h_tech_tree⟩ := h
  dsimp only at h_version h_float_ptr_terrain_tables h_terrain_pass_graphic_pointers h_terrain_restrictions h_player_colours h_sounds h_graphics h_terrain_block h_random_maps h_effects h_unit_headers h_civs h_techs h_time_slice h_unit_kill_rate h_unit_kill_total h_unit_hit_point_rate h_unit_hit_point_total h_razing_kill_rate h_razing_kill_total h_tech_tree
  obtain ⟨n, hn, h_tr⟩ := h_terrain_restrictions
  obtain ⟨n', hn', h_tr', hu⟩ : ∃ n' : Nat, n' ≤ 32767 ∧ AllOf (TerrainRestriction.WF v n') x_terrain_restrictions ∧
      usedOf x_terrain_restrictions = n' := by
    by_cases hl : x_terrain_restrictions = []
    · subst hl; exact ⟨0, by omega, by simp [AllOf], rfl⟩
    · exact ⟨n, hn, h_tr.2, terrains_used_isI16 h_tr.2 hl⟩
  unfold DatFile.fromBytes DatFile.toBytes DatFile.toBytesGiven
  simp only [(versionNames_spec h_version).1]
  rw [if_neg (by rw [h_float_ptr_terrain_tables.1, h_terrain_pass_graphic_pointers.1]; simp)]
  refine Reads.header h_version ?_
  simp only [DatFile.graphic_pointers_eq, DatFile.terrains_used_eq, hu]
  refine RW.bind (RW.int16 (isI16_len h_tr.1)) ?_
  refine RW.bind (RW.int16 (isI16_len hn')) ?_
  refine RW.bind (RW.int32Array (by rw [h_float_ptr_terrain_tables.1]) h_float_ptr_terrain_tables.2) ?_
  refine RW.bind (RW.int32Array (by rw [h_terrain_pass_graphic_pointers.1]) h_terrain_pass_graphic_pointers.2) ?_
  refine RW.bind (RW.array rfl fun y hy => TerrainRestriction.rw (h_tr' y hy)) ?_
  refine RW.bind0 (Reads.noteLossy (by
    rw [decide_eq_false]
    rintro ⟨rfl, h2⟩
    exact h2 hu.symm)) ?_
  refine RW.bind (RW.int16 (isI16_len h_player_colours.1)) ?_
  refine RW.bind (RW.classArray rfl fun y hy => PlayerColour.rw (h_player_colours.2 y hy)) ?_
  refine RW.bind (RW.int16 (isI16_len h_sounds.1)) ?_
  refine RW.bind (RW.classArray rfl fun y hy => Sound.rw (h_sounds.2 y hy)) ?_
  refine RW.bind (RW.int16 (isI16_len h_graphics.1)) ?_
  refine RW.bind (RW.int32Array (by rw [slotPointers_length]) (slotPointers_i32 _)) ?_
  refine RW.bind (RW.classArrayWithPointers rfl rfl fun o ho y hy => Graphic.rw (h_graphics.2 o ho y hy)) ?_
  refine RW.bind (RW.class_ (TerrainBlock.rw h_terrain_block)) ?_
  refine RW.bind (RW.class_ (RandomMaps.rw h_random_maps)) ?_
  refine RW.bind (RW.int32 (isI32_len h_effects.1)) ?_
  refine RW.bind (RW.classArray rfl fun y hy => Effect.rw (h_effects.2 y hy)) ?_
  refine RW.bind (RW.int32 (isI32_len h_unit_headers.1)) ?_
  refine RW.bind (RW.classArray rfl fun y hy => UnitHeaders.rw (h_unit_headers.2 y hy)) ?_
  refine RW.bind (RW.int16 (isI16_len h_civs.1)) ?_
  refine RW.bind (RW.classArray rfl fun y hy => Civ.rw (h_civs.2 y hy)) ?_
  refine RW.bind (RW.int16 (isI16_len h_techs.1)) ?_
  refine RW.bind (RW.classArray rfl fun y hy => Tech.rw (h_techs.2 y hy)) ?_
  refine RW.bind (RW.int32 h_time_slice) ?_
  refine RW.bind (RW.int32 h_unit_kill_rate) ?_
  refine RW.bind (RW.int32 h_unit_kill_total) ?_
  refine RW.bind (RW.int32 h_unit_hit_point_rate) ?_
  refine RW.bind (RW.int32 h_unit_hit_point_total) ?_
  refine RW.bind (RW.int32 h_razing_kill_rate) ?_
  refine RW.bind (RW.int32 h_razing_kill_total) ?_
  refine RW.bind (RW.class_ (TechTree.rw h_tech_tree)) ?_
  exact RW.pure rfl

set_option maxRecDepth 2000 in
theorem DatFile.goodFile :
    GoodFile DatFile.fromBytes DatFile.WFAt (fun x bs => DatFile.toBytes x = .ok bs) := by
  refine GoodFile.header fun version v h_version => ?_
  refine Good.bind (Good.int16) fun terrain_restrictions_size h_terrain_restrictions_size => ?_
  refine Good.bind (Good.int16) fun terrains_used_1 h_terrains_used_1 => ?_
  refine Good.bind (Good.int32Array _) fun float_ptr_terrain_tables h_float_ptr_terrain_tables => ?_
  refine Good.bind (Good.int32Array _) fun terrain_pass_graphic_pointers h_terrain_pass_graphic_pointers => ?_
  refine Good.bind (Good.restrictions v _ _) fun terrain_restrictions h_terrain_restrictions => ?_
  refine Good.bind (P := fun _ bs => bs = [] ∧ ¬ (terrain_restrictions = [] ∧ terrains_used_1 ≠ 0))
    (Good.noteLossy (fun h => ⟨rfl, by simpa only [decide_eq_false_iff_not] using h⟩)) fun _ _ => ?_
  refine Good.bind (Good.int16) fun player_colours_size h_player_colours_size => ?_
  refine Good.bind (Good.classArray _ (PlayerColour.good v)) fun player_colours h_player_colours => ?_
  refine Good.bind (Good.int16) fun sounds_size h_sounds_size => ?_
  refine Good.bind (Good.classArray _ (Sound.good v)) fun sounds h_sounds => ?_
  refine Good.bind (Good.int16) fun graphics_size h_graphics_size => ?_
  refine Good.bind (Good.int32Array _) fun graphic_pointers h_graphic_pointers => ?_
  refine Good.bind (Good.classArrayWithPointers h_graphic_pointers.1 (Graphic.good v)) fun graphics h_graphics => ?_
  refine Good.bind (Good.class_ (TerrainBlock.good v)) fun terrain_block h_terrain_block => ?_
  refine Good.bind (Good.class_ (RandomMaps.good v)) fun random_maps h_random_maps => ?_
  refine Good.bind (Good.int32) fun effects_size h_effects_size => ?_
  refine Good.bind (Good.classArray _ (Effect.good v)) fun effects h_effects => ?_
  refine Good.bind (Good.int32) fun unit_headers_size h_unit_headers_size => ?_
  refine Good.bind (Good.classArray _ (UnitHeaders.good v)) fun unit_headers h_unit_headers => ?_
  refine Good.bind (Good.int16) fun civs_size h_civs_size => ?_
  refine Good.bind (Good.classArray _ (Civ.good v)) fun civs h_civs => ?_
  refine Good.bind (Good.int16) fun techs_size h_techs_size => ?_
  refine Good.bind (Good.classArray _ (Tech.good v)) fun techs h_techs => ?_
  refine Good.bind (Good.int32) fun time_slice h_time_slice => ?_
  refine Good.bind (Good.int32) fun unit_kill_rate h_unit_kill_rate => ?_
  refine Good.bind (Good.int32) fun unit_kill_total h_unit_kill_total => ?_
  refine Good.bind (Good.int32) fun unit_hit_point_rate h_unit_hit_point_rate => ?_
  refine Good.bind (Good.int32) fun unit_hit_point_total h_unit_hit_point_total => ?_
  refine Good.bind (Good.int32) fun razing_kill_rate h_razing_kill_rate => ?_
  refine Good.bind (Good.int32) fun razing_kill_total h_razing_kill_total => ?_
  refine Good.bind (Good.class_ (TechTree.good v)) fun tech_tree h_tech_tree => ?_
  refine Good.pure ⟨h_version, ⟨h_float_ptr_terrain_tables.1.trans h_terrain_restrictions.1.symm, h_float_ptr_terrain_tables.2⟩, ⟨h_terrain_pass_graphic_pointers.1.trans h_terrain_restrictions.1.symm, h_terrain_pass_graphic_pointers.2⟩, ⟨terrains_used_1.toNat, by unfold IsI16 at h_terrains_used_1; omega, upTo_i16 h_terrain_restrictions_size h_terrain_restrictions⟩, upTo_i16 h_player_colours_size h_player_colours, upTo_i16 h_sounds_size h_sounds, upTo_i16 h_graphics_size ⟨h_graphics.1.trans h_graphic_pointers.1, h_graphics.2⟩, h_terrain_block, h_random_maps, upTo_i32 h_effects_size h_effects, upTo_i32 h_unit_headers_size h_unit_headers, upTo_i16 h_civs_size h_civs, upTo_i16 h_techs_size h_techs, h_time_slice, h_unit_kill_rate, h_unit_kill_total, h_unit_hit_point_rate, h_unit_hit_point_total, h_razing_kill_rate, h_razing_kill_total, h_tech_tree⟩ ?_
  rintro b30 k30 b29 k29 b28 k28 b27 k27 b26 k26 b25 k25 b24 k24 b23 k23 b22 ⟨rfl, k22⟩ b21 k21 b20 ⟨rfl, k20⟩ b19 k19 b18 ⟨rfl, k18⟩ b17 k17 b16 ⟨rfl, k16⟩ b15 k15 b14 k14 b13 k13 b12 ⟨rfl, k12⟩ b11 ⟨l11, k11⟩ b10 k10 b9 ⟨rfl, k9⟩ b8 k8 b7 ⟨rfl, k7⟩ b6 k6 b5 ⟨rfl, k5⟩ b4 ⟨rfl, u4, k4⟩ b3 ⟨l3, k3⟩ b2 ⟨l2, k2⟩ b1 k1 b0 k0 bh kh
  obtain rfl := l11.trans (by rw [slotPointers_length])
  have hu : terrains_used_1 = usedOf terrain_restrictions := by
    cases terrain_restrictions with
    | nil => simpa [usedOf] using k5
    | cons r rs => exact u4 r (by simp)
  unfold DatFile.toBytes DatFile.toBytesGiven
  simp only [(versionNames_spec h_version).1]
  have q1 : float_ptr_terrain_tables.length = terrain_restrictions.length := (Int.ofNat.inj l2).symm
  have q2 : terrain_pass_graphic_pointers.length = terrain_restrictions.length := (Int.ofNat.inj l3).symm
  rw [if_neg (not_not_intro ⟨q1.trans q2.symm, q2⟩)]
  simp only [DatFile.graphic_pointers_eq, DatFile.terrains_used_eq, ← hu, List.nil_append]
  exact joinB_cons_ok kh (joinB_cons_ok k0 (joinB_cons_ok k1 (joinB_cons_ok k2 (joinB_cons_ok k3 (joinB_cons_ok k4 (joinB_cons_ok k6 (joinB_cons_ok k7 (joinB_cons_ok k8 (joinB_cons_ok k9 (joinB_cons_ok k10 (joinB_cons_ok k11 (joinB_cons_ok k12 (joinB_cons_ok k13 (joinB_cons_ok k14 (joinB_cons_ok k15 (joinB_cons_ok k16 (joinB_cons_ok k17 (joinB_cons_ok k18 (joinB_cons_ok k19 (joinB_cons_ok k20 (joinB_cons_ok k21 (joinB_cons_ok k22 (joinB_cons_ok k23 (joinB_cons_ok k24 (joinB_cons_ok k25 (joinB_cons_ok k26 (joinB_cons_ok k27 (joinB_cons_ok k28 (joinB_cons_ok k29 (joinB_cons_ok k30 rfl))))))))))))))))))))))))))))))

end Genie
