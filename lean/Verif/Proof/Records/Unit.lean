import Verif.Proof.Records.Creatable
/-! # Write-read and read-write lemmas: `Unit` -/

namespace Genie

theorem has_speed (t : Int) : (t ≠ UnitType.AoeTrees ∧ t ≥ UnitType.Flag) ↔ (t ≠ 90 ∧ 20 ≤ t) := by
  unfold UnitType.AoeTrees UnitType.Flag; omega
theorem has_dead_fish (t : Int) : (t ≠ UnitType.AoeTrees ∧ t ≥ UnitType.Flag ∧ t ≥ UnitType.DeadFish) ↔
    (t ≠ 90 ∧ 30 ≤ t) := by
  unfold UnitType.AoeTrees UnitType.Flag UnitType.DeadFish; omega
theorem has_bird (t : Int) : (t ≠ UnitType.AoeTrees ∧ t ≥ UnitType.Flag ∧ t ≥ UnitType.Bird) ↔
    (t ≠ 90 ∧ 40 ≤ t) := by
  unfold UnitType.AoeTrees UnitType.Flag UnitType.Bird; omega
theorem has_type_50 (t : Int) : (t ≠ UnitType.AoeTrees ∧ t ≥ UnitType.Flag ∧ t ≥ UnitType.Combatant) ↔
    (t ≠ 90 ∧ 50 ≤ t) := by
  unfold UnitType.AoeTrees UnitType.Flag UnitType.Combatant; omega
theorem has_projectile (t : Int) : (t ≠ UnitType.AoeTrees ∧ t ≥ UnitType.Flag ∧ t = UnitType.Projectile) ↔
    (t = 60) := by
  unfold UnitType.AoeTrees UnitType.Flag UnitType.Projectile; omega
theorem has_creatable (t : Int) : (t ≠ UnitType.AoeTrees ∧ t ≥ UnitType.Flag ∧ t ≥ UnitType.Creatable) ↔
    (t ≠ 90 ∧ 70 ≤ t) := by
  unfold UnitType.AoeTrees UnitType.Flag UnitType.Creatable; omega
theorem has_building (t : Int) : (t ≠ UnitType.AoeTrees ∧ t ≥ UnitType.Flag ∧ t = UnitType.Building) ↔
    (t = 80) := by
  unfold UnitType.AoeTrees UnitType.Flag UnitType.Building; omega

theorem py_bind_ok (a : α) (f : α → Py β) : ((Except.ok a : Py α) >>= f) = f a := rfl

/-- An optional part written and read under equivalent conditions. -/
theorem RW.optional {v : Version} {c d : Prop} [Decidable c] {r : Reader α} {w : α → Py Bytes}
    {o : Option α} {p : α → Prop} (hcd : c ↔ d) (h : PresentIff d p o)
    (hrw : ∀ a, p a → RW v r (w a) a) : RW v (Genie.readIf c r) (writeIf c w o) o := by
  refine RW.readIf Iff.rfl ?_ ?_
  · intro hc
    obtain ⟨a, rfl⟩ := Option.isSome_iff_exists.1 (h.1.1 (hcd.1 hc))
    exact ⟨a, rfl, hrw a (h.2 a rfl)⟩
  · intro hc
    cases o with
    | none => rfl
    | some a => exact absurd (hcd.2 (h.1.2 rfl)) hc

theorem presentIff_of {c d : Prop} {p : α → Prop} {o : Option α} (hcd : c ↔ d)
    (h : (c ↔ o.isSome = true) ∧ IfSome p o) : PresentIff d p o := ⟨hcd.symm.trans h.1, h.2⟩

theorem presentIff_map {c d : Prop} {p q : α → Prop} {o : Option α} {f : α → α} (hcd : c ↔ d)
    (h : (c ↔ o.isSome = true) ∧ IfSome p o) (hf : ∀ a, p a → q (f a)) : PresentIff d q (o.map f) := by
  refine ⟨by simpa using hcd.symm.trans h.1, ?_⟩
  cases o with
  | none => rintro a ⟨⟩
  | some b => rintro a ⟨⟩; exact hf b (h.2 b rfl)

set_option maxRecDepth 4000 in
theorem Unit.rw {v : Version} {x : Unit} (h : Unit.WF v x) :
    RW v Unit.fromBytes (Unit.toBytes v x) x := by
  obtain ⟨x_type, x_id, x_language_dll_name, x_language_dll_creation, x_class_, x_standing_graphic, x_dying_graphic, x_undead_graphic, x_undead_mode, x_hit_points, x_line_of_sight, x_garrison_capacity, x_collision_size_x, x_collision_size_y, x_collision_size_z, x_train_sound, x_damage_sound, x_dead_unit_id, x_blood_unit_id, x_sort_number, x_can_be_built_on, x_icon_id, x_hide_in_editor, x_old_portrait_pict, x_enabled, x_disabled, x_placement_side_terrain, x_placement_terrain, x_clearance_size, x_hill_mode, x_fog_visibility, x_terrain_restriction, x_fly_mode, x_resource_capacity, x_resource_decay, x_blast_defense_level, x_combat_level, x_interaction_mode, x_minimap_mode, x_interface_kind, x_multiple_attribute_mode, x_minimap_color, x_language_dll_help, x_language_dll_hotkey_text, x_hot_key, x_recyclable, x_enable_auto_gather, x_create_doppelganger_on_death, x_resource_gather_group, x_occlusion_mode, x_obstruction_type, x_obstruction_class, x_trait, x_civilization, x_nothing, x_selection_effect, x_editor_selection_colour, x_outline_size_x, x_outline_size_y, x_outline_size_z, x_scenario_triggers_1, x_scenario_triggers_2, x_resource_storages, x_damage_graphics, x_selection_sound, x_dying_sound, x_wwise_train_sound_id, x_wwise_damage_sound_id, x_wwise_selection_sound_id, x_wwise_dying_sound_id, x_old_attack_reaction, x_convert_terrain, x_name, x_copy_id, x_base_id, x_speed, x_dead_fish, x_bird, x_type_50, x_projectile, x_creatable, x_building⟩ := x
  obtain ⟨h_type, h_id, h_language_dll_name, h_language_dll_creation, h_class_, h_standing_graphic, h_dying_graphic, h_undead_graphic, h_undead_mode, h_hit_points, h_line_of_sight, h_garrison_capacity, h_collision_size_x, h_collision_size_y, h_collision_size_z, h_train_sound, h_damage_sound, h_dead_unit_id, h_blood_unit_id, h_sort_number, h_can_be_built_on, h_icon_id, h_hide_in_editor, h_old_portrait_pict, h_enabled, h_disabled, h_placement_side_terrain, h_placement_terrain, h_clearance_size, h_hill_mode, h_fog_visibility, h_terrain_restriction, h_fly_mode, h_resource_capacity, h_resource_decay, h_blast_defense_level, h_combat_level, h_interaction_mode, h_minimap_mode, h_interface_kind, h_multiple_attribute_mode, h_minimap_color, h_language_dll_help, h_language_dll_hotkey_text, h_hot_key, h_recyclable, h_enable_auto_gather, h_create_doppelganger_on_death, h_resource_gather_group, h_occlusion_mode, h_obstruction_type, h_obstruction_class, h_trait, h_civilization, h_nothing, h_selection_effect, h_editor_selection_colour, h_outline_size_x, h_outline_size_y, h_outline_size_z, h_scenario_triggers_1, h_scenario_triggers_2, h_resource_storages, h_damage_graphics, h_selection_sound, h_dying_sound, h_wwise_train_sound_id, h_wwise_damage_sound_id, h_wwise_selection_sound_id, h_wwise_dying_sound_id, h_old_attack_reaction, h_convert_terrain, h_name, h_copy_id, h_base_id, h_speed, h_dead_fish, h_bird, h_type_50, h_projectile, h_creatable, h_building⟩ := h
  dsimp only at h_type h_id h_language_dll_name h_language_dll_creation h_class_ h_standing_graphic h_dying_graphic h_undead_graphic h_undead_mode h_hit_points h_line_of_sight h_garrison_capacity h_collision_size_x h_collision_size_y h_collision_size_z h_train_sound h_damage_sound h_dead_unit_id h_blood_unit_id h_sort_number h_can_be_built_on h_icon_id h_hide_in_editor h_old_portrait_pict h_enabled h_disabled h_placement_side_terrain h_placement_terrain h_clearance_size h_hill_mode h_fog_visibility h_terrain_restriction h_fly_mode h_resource_capacity h_resource_decay h_blast_defense_level h_combat_level h_interaction_mode h_minimap_mode h_interface_kind h_multiple_attribute_mode h_minimap_color h_language_dll_help h_language_dll_hotkey_text h_hot_key h_recyclable h_enable_auto_gather h_create_doppelganger_on_death h_resource_gather_group h_occlusion_mode h_obstruction_type h_obstruction_class h_trait h_civilization h_nothing h_selection_effect h_editor_selection_colour h_outline_size_x h_outline_size_y h_outline_size_z h_scenario_triggers_1 h_scenario_triggers_2 h_resource_storages h_damage_graphics h_selection_sound h_dying_sound h_wwise_train_sound_id h_wwise_damage_sound_id h_wwise_selection_sound_id h_wwise_dying_sound_id h_old_attack_reaction h_convert_terrain h_name h_copy_id h_base_id h_speed h_dead_fish h_bird h_type_50 h_projectile h_creatable h_building
  obtain ⟨hl_standing_graphic, h_standing_graphic⟩ := h_standing_graphic
  obtain ⟨standing_graphic_1, standing_graphic_2, rfl⟩ := length_eq_2 hl_standing_graphic
  obtain ⟨hl_placement_side_terrain, h_placement_side_terrain⟩ := h_placement_side_terrain
  obtain ⟨placement_side_terrain_1, placement_side_terrain_2, rfl⟩ := length_eq_2 hl_placement_side_terrain
  obtain ⟨hl_placement_terrain, h_placement_terrain⟩ := h_placement_terrain
  obtain ⟨placement_terrain_1, placement_terrain_2, rfl⟩ := length_eq_2 hl_placement_terrain
  obtain ⟨hl_clearance_size, h_clearance_size⟩ := h_clearance_size
  obtain ⟨clearance_size_1, clearance_size_2, rfl⟩ := length_eq_2 hl_clearance_size
  unfold Unit.fromBytes Unit.toBytes
  refine RW.getVersion ?_
  by_cases hv : 88 ≤ v.num
  · have hg : v.ge .VER_88 = true := (ge_iff _ _).2 hv
    rw [if_pos hg, if_pos hg]
    replace h_hot_key := h_hot_key.pos hv
    unfold Unit.fromBytes88 Unit.toBytes88
    obtain ⟨w_speed, e_speed, r_speed⟩ := RW.optional (has_speed _) h_speed fun a ha => RW.float ha
    obtain ⟨w_dead_fish, e_dead_fish, r_dead_fish⟩ := RW.optional (has_dead_fish _) h_dead_fish fun a ha => RW.class_ (DeadFish.rw ha)
    obtain ⟨w_bird, e_bird, r_bird⟩ := RW.optional (has_bird _) h_bird fun a ha => RW.class_ (Bird.rw ha)
    obtain ⟨w_type_50, e_type_50, r_type_50⟩ := RW.optional (has_type_50 _) h_type_50 fun a ha => RW.class_ (Type50.rw ha)
    obtain ⟨w_projectile, e_projectile, r_projectile⟩ := RW.optional (has_projectile _) h_projectile fun a ha => RW.class_ (Projectile.rw ha)
    obtain ⟨w_creatable, e_creatable, r_creatable⟩ := RW.optional (has_creatable _) h_creatable fun a ha => RW.class_ (Creatable.rw (ha.of_ge hv))
    obtain ⟨w_building, e_building, r_building⟩ := RW.optional (has_building _) h_building fun a ha => RW.class_ (Building.rw ha)
    simp only [e_speed, e_dead_fish, e_bird, e_type_50, e_projectile, e_creatable, e_building, py_bind_ok]
    refine RW.bind (RW.unpack (cs := [Code.b, Code.h, Code.l, Code.l, Code.h, Code.h, Code.h, Code.h, Code.h, Code.b, Code.h, Code.f, Code.b, Code.f, Code.f, Code.f, Code.h, Code.h, Code.h, Code.h, Code.b, Code.b, Code.h, Code.b, Code.h, Code.b, Code.b, Code.h, Code.h, Code.h, Code.h, Code.f, Code.f, Code.b, Code.b, Code.h, Code.b, Code.h, Code.f, Code.b, Code.b, Code.b, Code.b, Code.b, Code.f, Code.b, Code.l, Code.l, Code.b, Code.b, Code.b, Code.b, Code.b, Code.b, Code.b, Code.b, Code.b, Code.h, Code.b, Code.b, Code.f, Code.f, Code.f, Code.l, Code.l]) (by decide) (by decide)
        ⟨h_type, h_id, h_language_dll_name, h_language_dll_creation, h_class_, h_standing_graphic _ (by simp), h_standing_graphic _ (by simp), h_dying_graphic, h_undead_graphic, h_undead_mode, h_hit_points, h_line_of_sight, h_garrison_capacity, h_collision_size_x, h_collision_size_y, h_collision_size_z, h_train_sound, h_damage_sound, h_dead_unit_id, h_blood_unit_id, h_sort_number, h_can_be_built_on, h_icon_id, h_hide_in_editor, h_old_portrait_pict, h_enabled, h_disabled, h_placement_side_terrain _ (by simp), h_placement_side_terrain _ (by simp), h_placement_terrain _ (by simp), h_placement_terrain _ (by simp), h_clearance_size _ (by simp), h_clearance_size _ (by simp), h_hill_mode, h_fog_visibility, h_terrain_restriction, h_fly_mode, h_resource_capacity, h_resource_decay, h_blast_defense_level, h_combat_level, h_interaction_mode, h_minimap_mode, h_interface_kind, h_multiple_attribute_mode, h_minimap_color, h_language_dll_help, h_language_dll_hotkey_text, h_recyclable, h_enable_auto_gather, h_create_doppelganger_on_death, h_resource_gather_group, h_occlusion_mode, h_obstruction_type, h_obstruction_class, h_trait, h_civilization, h_nothing, h_selection_effect, h_editor_selection_colour, h_outline_size_x, h_outline_size_y, h_outline_size_z, h_scenario_triggers_1, h_scenario_triggers_2, trivial⟩) ?_
    dsimp only [popInt, popFloat, popDone, List.map, List.cons_append, List.nil_append]
    rw [joinB_single]
    refine RW.bind (RW.classArray3 h_resource_storages.1 fun y hy => ResourceStorage.rw (h_resource_storages.2 y hy)) ?_
    refine RW.bind (RW.int8 (isU8_len h_damage_graphics.1)) ?_
    refine RW.bind (RW.classArray rfl fun y hy => DamageGraphic.rw (h_damage_graphics.2 y hy)) ?_
    refine RW.bind (RW.int16 h_selection_sound) ?_
    refine RW.bind (RW.int16 h_dying_sound) ?_
    refine RW.bind (RW.int32 h_wwise_train_sound_id) ?_
    refine RW.bind (RW.int32 h_wwise_damage_sound_id) ?_
    refine RW.bind (RW.int32 h_wwise_selection_sound_id) ?_
    refine RW.bind (RW.int32 h_wwise_dying_sound_id) ?_
    refine RW.bind (RW.int8 h_old_attack_reaction) ?_
    refine RW.bind (RW.int8 h_convert_terrain) ?_
    refine RW.bind (RW.debugString h_name) ?_
    refine RW.bind (RW.int16 h_copy_id) ?_
    refine RW.bind (RW.int16 h_base_id) ?_
    refine RW.bind ⟨w_speed, rfl, r_speed⟩ ?_
    refine RW.bind ⟨w_dead_fish, rfl, r_dead_fish⟩ ?_
    refine RW.bind ⟨w_bird, rfl, r_bird⟩ ?_
    refine RW.bind ⟨w_type_50, rfl, r_type_50⟩ ?_
    refine RW.bind ⟨w_projectile, rfl, r_projectile⟩ ?_
    refine RW.bind ⟨w_creatable, rfl, r_creatable⟩ ?_
    refine RW.bind ⟨w_building, rfl, r_building⟩ ?_
    refine RW.pure ?_
    have : Creatable.firstHotKey x_creatable 16000 = x_hot_key := by
      cases x_creatable with
      | none => exact (h_hot_key.2 (by simp)).symm
      | some c =>
        unfold Creatable.firstHotKey
        cases hc : c.train_locations with
        | nil => simp only [hc]; exact (h_hot_key.2 (by rintro c' ⟨⟩; exact hc)).symm
        | cons t ts => simp only [hc]; exact (h_hot_key.1 c t ts rfl hc).symm
    rw [this]
  · have hg := not_ge (w := .VER_88) hv
    rw [if_neg hg, if_neg hg]
    replace h_hot_key := h_hot_key.neg hv
    unfold Unit.fromBytes84 Unit.toBytes84
    obtain ⟨w_speed, e_speed, r_speed⟩ := RW.optional (has_speed _) h_speed fun a ha => RW.float ha
    obtain ⟨w_dead_fish, e_dead_fish, r_dead_fish⟩ := RW.optional (has_dead_fish _) h_dead_fish fun a ha => RW.class_ (DeadFish.rw ha)
    obtain ⟨w_bird, e_bird, r_bird⟩ := RW.optional (has_bird _) h_bird fun a ha => RW.class_ (Bird.rw ha)
    obtain ⟨w_type_50, e_type_50, r_type_50⟩ := RW.optional (has_type_50 _) h_type_50 fun a ha => RW.class_ (Type50.rw ha)
    obtain ⟨w_projectile, e_projectile, r_projectile⟩ := RW.optional (has_projectile _) h_projectile fun a ha => RW.class_ (Projectile.rw ha)
    obtain ⟨w_building, e_building, r_building⟩ := RW.optional (has_building _) h_building fun a ha => RW.class_ (Building.rw ha)
    obtain ⟨w_creatable, e_creatable, r_creatable⟩ : RW v
        (readIf (x_type ≠ UnitType.AoeTrees ∧ x_type ≥ UnitType.Flag ∧ x_type ≥ UnitType.Creatable)
          (readClass Creatable.fromBytes))
        (writeIf (x_type ≠ UnitType.AoeTrees ∧ x_type ≥ UnitType.Flag ∧ x_type ≥ UnitType.Creatable)
          (fun x => writeClass Creatable.toBytes x v) x_creatable)
        (x_creatable.map (Creatable.withHotKey 16000)) := by
      cases x_creatable with
      | none =>
        have hn : ¬ (x_type ≠ UnitType.AoeTrees ∧ x_type ≥ UnitType.Flag ∧ x_type ≥ UnitType.Creatable) := by
          intro k
          have := h_creatable.1.1 ((has_creatable _).1 k)
          simp at this
        rw [Genie.readIf, writeIf, if_neg hn, if_neg hn]
        exact RW.pure rfl
      | some c =>
        have hp := (has_creatable _).2 (h_creatable.1.2 rfl)
        rw [Genie.readIf, writeIf, if_pos hp, if_pos hp]
        exact RW.map (Creatable.rwWith hv (h_creatable.2 c rfl)) (Reads.pure rfl)
    simp only [e_speed, e_dead_fish, e_bird, e_type_50, e_projectile, e_creatable, e_building, py_bind_ok]
    refine RW.bind (RW.unpack (cs := [Code.b, Code.h, Code.l, Code.l, Code.h, Code.h, Code.h, Code.h, Code.h, Code.b, Code.h, Code.f, Code.b, Code.f, Code.f, Code.f, Code.h, Code.h, Code.h, Code.h, Code.b, Code.b, Code.h, Code.b, Code.h, Code.b, Code.b, Code.h, Code.h, Code.h, Code.h, Code.f, Code.f, Code.b, Code.b, Code.h, Code.b, Code.h, Code.f, Code.b, Code.b, Code.b, Code.b, Code.b, Code.f, Code.b, Code.l, Code.l, Code.l, Code.b, Code.b, Code.b, Code.b, Code.b, Code.b, Code.b, Code.b, Code.b, Code.h, Code.b, Code.b, Code.f, Code.f, Code.f, Code.l, Code.l]) (by decide) (by decide)
        ⟨h_type, h_id, h_language_dll_name, h_language_dll_creation, h_class_, h_standing_graphic _ (by simp), h_standing_graphic _ (by simp), h_dying_graphic, h_undead_graphic, h_undead_mode, h_hit_points, h_line_of_sight, h_garrison_capacity, h_collision_size_x, h_collision_size_y, h_collision_size_z, h_train_sound, h_damage_sound, h_dead_unit_id, h_blood_unit_id, h_sort_number, h_can_be_built_on, h_icon_id, h_hide_in_editor, h_old_portrait_pict, h_enabled, h_disabled, h_placement_side_terrain _ (by simp), h_placement_side_terrain _ (by simp), h_placement_terrain _ (by simp), h_placement_terrain _ (by simp), h_clearance_size _ (by simp), h_clearance_size _ (by simp), h_hill_mode, h_fog_visibility, h_terrain_restriction, h_fly_mode, h_resource_capacity, h_resource_decay, h_blast_defense_level, h_combat_level, h_interaction_mode, h_minimap_mode, h_interface_kind, h_multiple_attribute_mode, h_minimap_color, h_language_dll_help, h_language_dll_hotkey_text, h_hot_key, h_recyclable, h_enable_auto_gather, h_create_doppelganger_on_death, h_resource_gather_group, h_occlusion_mode, h_obstruction_type, h_obstruction_class, h_trait, h_civilization, h_nothing, h_selection_effect, h_editor_selection_colour, h_outline_size_x, h_outline_size_y, h_outline_size_z, h_scenario_triggers_1, h_scenario_triggers_2, trivial⟩) ?_
    dsimp only [popInt, popFloat, popDone, List.map, List.cons_append, List.nil_append]
    rw [joinB_single]
    refine RW.bind (RW.classArray3 h_resource_storages.1 fun y hy => ResourceStorage.rw (h_resource_storages.2 y hy)) ?_
    refine RW.bind (RW.int8 (isU8_len h_damage_graphics.1)) ?_
    refine RW.bind (RW.classArray rfl fun y hy => DamageGraphic.rw (h_damage_graphics.2 y hy)) ?_
    refine RW.bind (RW.int16 h_selection_sound) ?_
    refine RW.bind (RW.int16 h_dying_sound) ?_
    refine RW.bind (RW.int32 h_wwise_train_sound_id) ?_
    refine RW.bind (RW.int32 h_wwise_damage_sound_id) ?_
    refine RW.bind (RW.int32 h_wwise_selection_sound_id) ?_
    refine RW.bind (RW.int32 h_wwise_dying_sound_id) ?_
    refine RW.bind (RW.int8 h_old_attack_reaction) ?_
    refine RW.bind (RW.int8 h_convert_terrain) ?_
    refine RW.bind (RW.debugString h_name) ?_
    refine RW.bind (RW.int16 h_copy_id) ?_
    refine RW.bind (RW.int16 h_base_id) ?_
    refine RW.bind ⟨w_speed, rfl, r_speed⟩ ?_
    refine RW.bind ⟨w_dead_fish, rfl, r_dead_fish⟩ ?_
    refine RW.bind ⟨w_bird, rfl, r_bird⟩ ?_
    refine RW.bind ⟨w_type_50, rfl, r_type_50⟩ ?_
    refine RW.bind ⟨w_projectile, rfl, r_projectile⟩ ?_
    refine RW.bind ⟨w_creatable, rfl, r_creatable⟩ ?_
    refine RW.bind ⟨w_building, rfl, r_building⟩ ?_
    refine RW.pure ?_
    have : (x_creatable.map (Creatable.withHotKey 16000)).map (Creatable.withHotKey x_hot_key) = x_creatable := by
      cases x_creatable with
      | none => rfl
      | some c => simp only [Option.map_some]; rw [(h_creatable.2 c rfl).withHotKey_self hv]
    rw [this]

set_option maxRecDepth 4000 in
theorem Unit.good (v : Version) :
    Good v Unit.fromBytes (Unit.WF v) (fun x bs => Unit.toBytes v x = .ok bs) := by
  unfold Unit.fromBytes
  refine Good.getVersion ?_
  by_cases hv : 88 ≤ v.num
  · have hg : v.ge .VER_88 = true := (ge_iff _ _).2 hv
    rw [if_pos hg]
    unfold Unit.fromBytes88
    refine Good.bind (Good.unpack (cs := [Code.b, Code.h, Code.l, Code.l, Code.h, Code.h, Code.h, Code.h, Code.h, Code.b, Code.h, Code.f, Code.b, Code.f, Code.f, Code.f, Code.h, Code.h, Code.h, Code.h, Code.b, Code.b, Code.h, Code.b, Code.h, Code.b, Code.b, Code.h, Code.h, Code.h, Code.h, Code.f, Code.f, Code.b, Code.b, Code.h, Code.b, Code.h, Code.f, Code.b, Code.b, Code.b, Code.b, Code.b, Code.f, Code.b, Code.l, Code.l, Code.b, Code.b, Code.b, Code.b, Code.b, Code.b, Code.b, Code.b, Code.b, Code.h, Code.b, Code.b, Code.f, Code.f, Code.f, Code.l, Code.l]) (by decide)) fun vs hm => ?_
    obtain ⟨type_, vs, rfl, h_type_, hm⟩ := hm.popB
    obtain ⟨id_, vs, rfl, h_id_, hm⟩ := hm.popH
    obtain ⟨language_dll_name, vs, rfl, h_language_dll_name, hm⟩ := hm.popL
    obtain ⟨language_dll_creation, vs, rfl, h_language_dll_creation, hm⟩ := hm.popL
    obtain ⟨class_, vs, rfl, h_class_, hm⟩ := hm.popH
    obtain ⟨standing_graphic_1, vs, rfl, h_standing_graphic_1, hm⟩ := hm.popH
    obtain ⟨standing_graphic_2, vs, rfl, h_standing_graphic_2, hm⟩ := hm.popH
    obtain ⟨dying_graphic, vs, rfl, h_dying_graphic, hm⟩ := hm.popH
    obtain ⟨undead_graphic, vs, rfl, h_undead_graphic, hm⟩ := hm.popH
    obtain ⟨undead_mode, vs, rfl, h_undead_mode, hm⟩ := hm.popB
    obtain ⟨hit_points, vs, rfl, h_hit_points, hm⟩ := hm.popH
    obtain ⟨line_of_sight, vs, rfl, h_line_of_sight, hm⟩ := hm.popF
    obtain ⟨garrison_capacity, vs, rfl, h_garrison_capacity, hm⟩ := hm.popB
    obtain ⟨collision_size_x, vs, rfl, h_collision_size_x, hm⟩ := hm.popF
    obtain ⟨collision_size_y, vs, rfl, h_collision_size_y, hm⟩ := hm.popF
    obtain ⟨collision_size_z, vs, rfl, h_collision_size_z, hm⟩ := hm.popF
    obtain ⟨train_sound, vs, rfl, h_train_sound, hm⟩ := hm.popH
    obtain ⟨damage_sound, vs, rfl, h_damage_sound, hm⟩ := hm.popH
    obtain ⟨dead_unit_id, vs, rfl, h_dead_unit_id, hm⟩ := hm.popH
    obtain ⟨blood_unit_id, vs, rfl, h_blood_unit_id, hm⟩ := hm.popH
    obtain ⟨sort_number, vs, rfl, h_sort_number, hm⟩ := hm.popB
    obtain ⟨can_be_built_on, vs, rfl, h_can_be_built_on, hm⟩ := hm.popB
    obtain ⟨icon_id, vs, rfl, h_icon_id, hm⟩ := hm.popH
    obtain ⟨hide_in_editor, vs, rfl, h_hide_in_editor, hm⟩ := hm.popB
    obtain ⟨old_portrait_pict, vs, rfl, h_old_portrait_pict, hm⟩ := hm.popH
    obtain ⟨enabled, vs, rfl, h_enabled, hm⟩ := hm.popB
    obtain ⟨disabled, vs, rfl, h_disabled, hm⟩ := hm.popB
    obtain ⟨placement_side_terrain_1, vs, rfl, h_placement_side_terrain_1, hm⟩ := hm.popH
    obtain ⟨placement_side_terrain_2, vs, rfl, h_placement_side_terrain_2, hm⟩ := hm.popH
    obtain ⟨placement_terrain_1, vs, rfl, h_placement_terrain_1, hm⟩ := hm.popH
    obtain ⟨placement_terrain_2, vs, rfl, h_placement_terrain_2, hm⟩ := hm.popH
    obtain ⟨clearance_size_1, vs, rfl, h_clearance_size_1, hm⟩ := hm.popF
    obtain ⟨clearance_size_2, vs, rfl, h_clearance_size_2, hm⟩ := hm.popF
    obtain ⟨hill_mode, vs, rfl, h_hill_mode, hm⟩ := hm.popB
    obtain ⟨fog_visibility, vs, rfl, h_fog_visibility, hm⟩ := hm.popB
    obtain ⟨terrain_restriction, vs, rfl, h_terrain_restriction, hm⟩ := hm.popH
    obtain ⟨fly_mode, vs, rfl, h_fly_mode, hm⟩ := hm.popB
    obtain ⟨resource_capacity, vs, rfl, h_resource_capacity, hm⟩ := hm.popH
    obtain ⟨resource_decay, vs, rfl, h_resource_decay, hm⟩ := hm.popF
    obtain ⟨blast_defense_level, vs, rfl, h_blast_defense_level, hm⟩ := hm.popB
    obtain ⟨combat_level, vs, rfl, h_combat_level, hm⟩ := hm.popB
    obtain ⟨interaction_mode, vs, rfl, h_interaction_mode, hm⟩ := hm.popB
    obtain ⟨minimap_mode, vs, rfl, h_minimap_mode, hm⟩ := hm.popB
    obtain ⟨interface_kind, vs, rfl, h_interface_kind, hm⟩ := hm.popB
    obtain ⟨multiple_attribute_mode, vs, rfl, h_multiple_attribute_mode, hm⟩ := hm.popF
    obtain ⟨minimap_color, vs, rfl, h_minimap_color, hm⟩ := hm.popB
    obtain ⟨language_dll_help, vs, rfl, h_language_dll_help, hm⟩ := hm.popL
    obtain ⟨language_dll_hotkey_text, vs, rfl, h_language_dll_hotkey_text, hm⟩ := hm.popL
    obtain ⟨recyclable, vs, rfl, h_recyclable, hm⟩ := hm.popB
    obtain ⟨enable_auto_gather, vs, rfl, h_enable_auto_gather, hm⟩ := hm.popB
    obtain ⟨create_doppelganger_on_death, vs, rfl, h_create_doppelganger_on_death, hm⟩ := hm.popB
    obtain ⟨resource_gather_group, vs, rfl, h_resource_gather_group, hm⟩ := hm.popB
    obtain ⟨occlusion_mode, vs, rfl, h_occlusion_mode, hm⟩ := hm.popB
    obtain ⟨obstruction_type, vs, rfl, h_obstruction_type, hm⟩ := hm.popB
    obtain ⟨obstruction_class, vs, rfl, h_obstruction_class, hm⟩ := hm.popB
    obtain ⟨trait, vs, rfl, h_trait, hm⟩ := hm.popB
    obtain ⟨civilization, vs, rfl, h_civilization, hm⟩ := hm.popB
    obtain ⟨nothing, vs, rfl, h_nothing, hm⟩ := hm.popH
    obtain ⟨selection_effect, vs, rfl, h_selection_effect, hm⟩ := hm.popB
    obtain ⟨editor_selection_colour, vs, rfl, h_editor_selection_colour, hm⟩ := hm.popB
    obtain ⟨outline_size_x, vs, rfl, h_outline_size_x, hm⟩ := hm.popF
    obtain ⟨outline_size_y, vs, rfl, h_outline_size_y, hm⟩ := hm.popF
    obtain ⟨outline_size_z, vs, rfl, h_outline_size_z, hm⟩ := hm.popF
    obtain ⟨scenario_triggers_1, vs, rfl, h_scenario_triggers_1, hm⟩ := hm.popL
    obtain ⟨scenario_triggers_2, vs, rfl, h_scenario_triggers_2, hm⟩ := hm.popL
    obtain rfl := hm.done
    dsimp only [popInt, popFloat, popDone]
    refine Good.bind (Good.classArray3 (ResourceStorage.good v)) fun resource_storages h_resource_storages => ?_
    refine Good.bind Good.int8 fun damage_graphic_size h_damage_graphic_size => ?_
    refine Good.bind (Good.classArray _ (DamageGraphic.good v)) fun damage_graphics h_damage_graphics => ?_
    refine Good.bind Good.int16 fun selection_sound h_selection_sound => ?_
    refine Good.bind Good.int16 fun dying_sound h_dying_sound => ?_
    refine Good.bind Good.int32 fun wwise_train_sound_id h_wwise_train_sound_id => ?_
    refine Good.bind Good.int32 fun wwise_damage_sound_id h_wwise_damage_sound_id => ?_
    refine Good.bind Good.int32 fun wwise_selection_sound_id h_wwise_selection_sound_id => ?_
    refine Good.bind Good.int32 fun wwise_dying_sound_id h_wwise_dying_sound_id => ?_
    refine Good.bind Good.int8 fun old_attack_reaction h_old_attack_reaction => ?_
    refine Good.bind Good.int8 fun convert_terrain h_convert_terrain => ?_
    refine Good.bind Good.debugString fun name h_name => ?_
    refine Good.bind Good.int16 fun copy_id h_copy_id => ?_
    refine Good.bind Good.int16 fun base_id h_base_id => ?_
    refine Good.bind (Good.readIf Good.float) fun speed h_speed => ?_
    refine Good.bind (Good.readIf (Good.class_ (DeadFish.good v))) fun dead_fish h_dead_fish => ?_
    refine Good.bind (Good.readIf (Good.class_ (Bird.good v))) fun bird h_bird => ?_
    refine Good.bind (Good.readIf (Good.class_ (Type50.good v))) fun type_50 h_type_50 => ?_
    refine Good.bind (Good.readIf (Good.class_ (Projectile.good v))) fun projectile h_projectile => ?_
    refine Good.bind (Good.readIf (Good.class_ (Creatable.good v))) fun creatable h_creatable => ?_
    refine Good.bind (Good.readIf (Good.class_ (Building.good v))) fun building h_building => ?_
    have hck : PresentIff (type_ ≠ 90 ∧ 70 ≤ type_) (Creatable.WFWith v (Creatable.firstHotKey creatable 16000)) creatable := by
      have := presentIff_of (has_creatable _) h_creatable
      exact ⟨this.1, fun c hc => (this.2 c hc).of_ge hv⟩
    refine Good.pure ⟨h_type_, h_id_, h_language_dll_name, h_language_dll_creation, h_class_, ⟨rfl, by simp [AllOf, h_standing_graphic_1, h_standing_graphic_2]⟩, h_dying_graphic, h_undead_graphic, h_undead_mode, h_hit_points, h_line_of_sight, h_garrison_capacity, h_collision_size_x, h_collision_size_y, h_collision_size_z, h_train_sound, h_damage_sound, h_dead_unit_id, h_blood_unit_id, h_sort_number, h_can_be_built_on, h_icon_id, h_hide_in_editor, h_old_portrait_pict, h_enabled, h_disabled, ⟨rfl, by simp [AllOf, h_placement_side_terrain_1, h_placement_side_terrain_2]⟩, ⟨rfl, by simp [AllOf, h_placement_terrain_1, h_placement_terrain_2]⟩, ⟨rfl, by simp [AllOf, h_clearance_size_1, h_clearance_size_2]⟩, h_hill_mode, h_fog_visibility, h_terrain_restriction, h_fly_mode, h_resource_capacity, h_resource_decay, h_blast_defense_level, h_combat_level, h_interaction_mode, h_minimap_mode, h_interface_kind, h_multiple_attribute_mode, h_minimap_color, h_language_dll_help, h_language_dll_hotkey_text, since_pos hv ?_, h_recyclable, h_enable_auto_gather, h_create_doppelganger_on_death, h_resource_gather_group, h_occlusion_mode, h_obstruction_type, h_obstruction_class, h_trait, h_civilization, h_nothing, h_selection_effect, h_editor_selection_colour, h_outline_size_x, h_outline_size_y, h_outline_size_z, h_scenario_triggers_1, h_scenario_triggers_2, h_resource_storages, upTo_u8 h_damage_graphic_size h_damage_graphics, h_selection_sound, h_dying_sound, h_wwise_train_sound_id, h_wwise_damage_sound_id, h_wwise_selection_sound_id, h_wwise_dying_sound_id, h_old_attack_reaction, h_convert_terrain, h_name, h_copy_id, h_base_id, presentIff_of (has_speed _) h_speed, presentIff_of (has_dead_fish _) h_dead_fish, presentIff_of (has_bird _) h_bird, presentIff_of (has_type_50 _) h_type_50, presentIff_of (has_projectile _) h_projectile, hck, presentIff_of (has_building _) h_building⟩ ?_
    · dsimp only
      constructor
      · rintro c t ts rfl hc
        simp only [Creatable.firstHotKey, hc]
      · intro hc
        cases creatable with
        | none => rfl
        | some c => simp only [Creatable.firstHotKey, hc c rfl]
    · rintro b21 k21 b20 k20 b19 k19 b18 k18 b17 k17 b16 k16 b15 k15 b14 k14 b13 k13 b12 k12 b11 k11 b10 k10 b9 k9 b8 k8 b7 k7 b6 k6 b5 k5 b4 k4 b3 ⟨rfl, k3⟩ b2 k2 b1 k1 b0 k0
      rw [Unit.toBytes, if_pos hg, Unit.toBytes88]
      simp only [k15, k16, k17, k18, k19, k20, k21, py_bind_ok]
      exact joinB_cons_ok k0 ((joinB_single _).trans (joinB_cons_ok k1 (joinB_cons_ok k2 (joinB_cons_ok k3 (joinB_cons_ok k4 (joinB_cons_ok k5 (joinB_cons_ok k6 (joinB_cons_ok k7 (joinB_cons_ok k8 (joinB_cons_ok k9 (joinB_cons_ok k10 (joinB_cons_ok k11 (joinB_cons_ok k12 (joinB_cons_ok k13 (joinB_cons_ok k14 (joinB_cons_ok rfl (joinB_cons_ok rfl (joinB_cons_ok rfl (joinB_cons_ok rfl (joinB_cons_ok rfl (joinB_cons_ok rfl (joinB_cons_ok rfl rfl))))))))))))))))))))))
  · have hg := not_ge (w := .VER_88) hv
    rw [if_neg hg]
    unfold Unit.fromBytes84
    refine Good.bind (Good.unpack (cs := [Code.b, Code.h, Code.l, Code.l, Code.h, Code.h, Code.h, Code.h, Code.h, Code.b, Code.h, Code.f, Code.b, Code.f, Code.f, Code.f, Code.h, Code.h, Code.h, Code.h, Code.b, Code.b, Code.h, Code.b, Code.h, Code.b, Code.b, Code.h, Code.h, Code.h, Code.h, Code.f, Code.f, Code.b, Code.b, Code.h, Code.b, Code.h, Code.f, Code.b, Code.b, Code.b, Code.b, Code.b, Code.f, Code.b, Code.l, Code.l, Code.l, Code.b, Code.b, Code.b, Code.b, Code.b, Code.b, Code.b, Code.b, Code.b, Code.h, Code.b, Code.b, Code.f, Code.f, Code.f, Code.l, Code.l]) (by decide)) fun vs hm => ?_
    obtain ⟨type_, vs, rfl, h_type_, hm⟩ := hm.popB
    obtain ⟨id_, vs, rfl, h_id_, hm⟩ := hm.popH
    obtain ⟨language_dll_name, vs, rfl, h_language_dll_name, hm⟩ := hm.popL
    obtain ⟨language_dll_creation, vs, rfl, h_language_dll_creation, hm⟩ := hm.popL
    obtain ⟨class_, vs, rfl, h_class_, hm⟩ := hm.popH
    obtain ⟨standing_graphic_1, vs, rfl, h_standing_graphic_1, hm⟩ := hm.popH
    obtain ⟨standing_graphic_2, vs, rfl, h_standing_graphic_2, hm⟩ := hm.popH
    obtain ⟨dying_graphic, vs, rfl, h_dying_graphic, hm⟩ := hm.popH
    obtain ⟨undead_graphic, vs, rfl, h_undead_graphic, hm⟩ := hm.popH
    obtain ⟨undead_mode, vs, rfl, h_undead_mode, hm⟩ := hm.popB
    obtain ⟨hit_points, vs, rfl, h_hit_points, hm⟩ := hm.popH
    obtain ⟨line_of_sight, vs, rfl, h_line_of_sight, hm⟩ := hm.popF
    obtain ⟨garrison_capacity, vs, rfl, h_garrison_capacity, hm⟩ := hm.popB
    obtain ⟨collision_size_x, vs, rfl, h_collision_size_x, hm⟩ := hm.popF
    obtain ⟨collision_size_y, vs, rfl, h_collision_size_y, hm⟩ := hm.popF
    obtain ⟨collision_size_z, vs, rfl, h_collision_size_z, hm⟩ := hm.popF
    obtain ⟨train_sound, vs, rfl, h_train_sound, hm⟩ := hm.popH
    obtain ⟨damage_sound, vs, rfl, h_damage_sound, hm⟩ := hm.popH
    obtain ⟨dead_unit_id, vs, rfl, h_dead_unit_id, hm⟩ := hm.popH
    obtain ⟨blood_unit_id, vs, rfl, h_blood_unit_id, hm⟩ := hm.popH
    obtain ⟨sort_number, vs, rfl, h_sort_number, hm⟩ := hm.popB
    obtain ⟨can_be_built_on, vs, rfl, h_can_be_built_on, hm⟩ := hm.popB
    obtain ⟨icon_id, vs, rfl, h_icon_id, hm⟩ := hm.popH
    obtain ⟨hide_in_editor, vs, rfl, h_hide_in_editor, hm⟩ := hm.popB
    obtain ⟨old_portrait_pict, vs, rfl, h_old_portrait_pict, hm⟩ := hm.popH
    obtain ⟨enabled, vs, rfl, h_enabled, hm⟩ := hm.popB
    obtain ⟨disabled, vs, rfl, h_disabled, hm⟩ := hm.popB
    obtain ⟨placement_side_terrain_1, vs, rfl, h_placement_side_terrain_1, hm⟩ := hm.popH
    obtain ⟨placement_side_terrain_2, vs, rfl, h_placement_side_terrain_2, hm⟩ := hm.popH
    obtain ⟨placement_terrain_1, vs, rfl, h_placement_terrain_1, hm⟩ := hm.popH
    obtain ⟨placement_terrain_2, vs, rfl, h_placement_terrain_2, hm⟩ := hm.popH
    obtain ⟨clearance_size_1, vs, rfl, h_clearance_size_1, hm⟩ := hm.popF
    obtain ⟨clearance_size_2, vs, rfl, h_clearance_size_2, hm⟩ := hm.popF
    obtain ⟨hill_mode, vs, rfl, h_hill_mode, hm⟩ := hm.popB
    obtain ⟨fog_visibility, vs, rfl, h_fog_visibility, hm⟩ := hm.popB
    obtain ⟨terrain_restriction, vs, rfl, h_terrain_restriction, hm⟩ := hm.popH
    obtain ⟨fly_mode, vs, rfl, h_fly_mode, hm⟩ := hm.popB
    obtain ⟨resource_capacity, vs, rfl, h_resource_capacity, hm⟩ := hm.popH
    obtain ⟨resource_decay, vs, rfl, h_resource_decay, hm⟩ := hm.popF
    obtain ⟨blast_defense_level, vs, rfl, h_blast_defense_level, hm⟩ := hm.popB
    obtain ⟨combat_level, vs, rfl, h_combat_level, hm⟩ := hm.popB
    obtain ⟨interaction_mode, vs, rfl, h_interaction_mode, hm⟩ := hm.popB
    obtain ⟨minimap_mode, vs, rfl, h_minimap_mode, hm⟩ := hm.popB
    obtain ⟨interface_kind, vs, rfl, h_interface_kind, hm⟩ := hm.popB
    obtain ⟨multiple_attribute_mode, vs, rfl, h_multiple_attribute_mode, hm⟩ := hm.popF
    obtain ⟨minimap_color, vs, rfl, h_minimap_color, hm⟩ := hm.popB
    obtain ⟨language_dll_help, vs, rfl, h_language_dll_help, hm⟩ := hm.popL
    obtain ⟨language_dll_hotkey_text, vs, rfl, h_language_dll_hotkey_text, hm⟩ := hm.popL
    obtain ⟨hot_key, vs, rfl, h_hot_key, hm⟩ := hm.popL
    obtain ⟨recyclable, vs, rfl, h_recyclable, hm⟩ := hm.popB
    obtain ⟨enable_auto_gather, vs, rfl, h_enable_auto_gather, hm⟩ := hm.popB
    obtain ⟨create_doppelganger_on_death, vs, rfl, h_create_doppelganger_on_death, hm⟩ := hm.popB
    obtain ⟨resource_gather_group, vs, rfl, h_resource_gather_group, hm⟩ := hm.popB
    obtain ⟨occlusion_mode, vs, rfl, h_occlusion_mode, hm⟩ := hm.popB
    obtain ⟨obstruction_type, vs, rfl, h_obstruction_type, hm⟩ := hm.popB
    obtain ⟨obstruction_class, vs, rfl, h_obstruction_class, hm⟩ := hm.popB
    obtain ⟨trait, vs, rfl, h_trait, hm⟩ := hm.popB
    obtain ⟨civilization, vs, rfl, h_civilization, hm⟩ := hm.popB
    obtain ⟨nothing, vs, rfl, h_nothing, hm⟩ := hm.popH
    obtain ⟨selection_effect, vs, rfl, h_selection_effect, hm⟩ := hm.popB
    obtain ⟨editor_selection_colour, vs, rfl, h_editor_selection_colour, hm⟩ := hm.popB
    obtain ⟨outline_size_x, vs, rfl, h_outline_size_x, hm⟩ := hm.popF
    obtain ⟨outline_size_y, vs, rfl, h_outline_size_y, hm⟩ := hm.popF
    obtain ⟨outline_size_z, vs, rfl, h_outline_size_z, hm⟩ := hm.popF
    obtain ⟨scenario_triggers_1, vs, rfl, h_scenario_triggers_1, hm⟩ := hm.popL
    obtain ⟨scenario_triggers_2, vs, rfl, h_scenario_triggers_2, hm⟩ := hm.popL
    obtain rfl := hm.done
    dsimp only [popInt, popFloat, popDone]
    refine Good.bind (Good.classArray3 (ResourceStorage.good v)) fun resource_storages h_resource_storages => ?_
    refine Good.bind Good.int8 fun damage_graphic_size h_damage_graphic_size => ?_
    refine Good.bind (Good.classArray _ (DamageGraphic.good v)) fun damage_graphics h_damage_graphics => ?_
    refine Good.bind Good.int16 fun selection_sound h_selection_sound => ?_
    refine Good.bind Good.int16 fun dying_sound h_dying_sound => ?_
    refine Good.bind Good.int32 fun wwise_train_sound_id h_wwise_train_sound_id => ?_
    refine Good.bind Good.int32 fun wwise_damage_sound_id h_wwise_damage_sound_id => ?_
    refine Good.bind Good.int32 fun wwise_selection_sound_id h_wwise_selection_sound_id => ?_
    refine Good.bind Good.int32 fun wwise_dying_sound_id h_wwise_dying_sound_id => ?_
    refine Good.bind Good.int8 fun old_attack_reaction h_old_attack_reaction => ?_
    refine Good.bind Good.int8 fun convert_terrain h_convert_terrain => ?_
    refine Good.bind Good.debugString fun name h_name => ?_
    refine Good.bind Good.int16 fun copy_id h_copy_id => ?_
    refine Good.bind Good.int16 fun base_id h_base_id => ?_
    refine Good.bind (Good.readIf Good.float) fun speed h_speed => ?_
    refine Good.bind (Good.readIf (Good.class_ (DeadFish.good v))) fun dead_fish h_dead_fish => ?_
    refine Good.bind (Good.readIf (Good.class_ (Bird.good v))) fun bird h_bird => ?_
    refine Good.bind (Good.readIf (Good.class_ (Type50.good v))) fun type_50 h_type_50 => ?_
    refine Good.bind (Good.readIf (Good.class_ (Projectile.good v))) fun projectile h_projectile => ?_
    refine Good.bind (Good.readIf (Good.class_ (Creatable.good v))) fun creatable h_creatable => ?_
    refine Good.bind (Good.readIf (Good.class_ (Building.good v))) fun building h_building => ?_
    refine Good.pure ⟨h_type_, h_id_, h_language_dll_name, h_language_dll_creation, h_class_, ⟨rfl, by simp [AllOf, h_standing_graphic_1, h_standing_graphic_2]⟩, h_dying_graphic, h_undead_graphic, h_undead_mode, h_hit_points, h_line_of_sight, h_garrison_capacity, h_collision_size_x, h_collision_size_y, h_collision_size_z, h_train_sound, h_damage_sound, h_dead_unit_id, h_blood_unit_id, h_sort_number, h_can_be_built_on, h_icon_id, h_hide_in_editor, h_old_portrait_pict, h_enabled, h_disabled, ⟨rfl, by simp [AllOf, h_placement_side_terrain_1, h_placement_side_terrain_2]⟩, ⟨rfl, by simp [AllOf, h_placement_terrain_1, h_placement_terrain_2]⟩, ⟨rfl, by simp [AllOf, h_clearance_size_1, h_clearance_size_2]⟩, h_hill_mode, h_fog_visibility, h_terrain_restriction, h_fly_mode, h_resource_capacity, h_resource_decay, h_blast_defense_level, h_combat_level, h_interaction_mode, h_minimap_mode, h_interface_kind, h_multiple_attribute_mode, h_minimap_color, h_language_dll_help, h_language_dll_hotkey_text, since_neg hv h_hot_key, h_recyclable, h_enable_auto_gather, h_create_doppelganger_on_death, h_resource_gather_group, h_occlusion_mode, h_obstruction_type, h_obstruction_class, h_trait, h_civilization, h_nothing, h_selection_effect, h_editor_selection_colour, h_outline_size_x, h_outline_size_y, h_outline_size_z, h_scenario_triggers_1, h_scenario_triggers_2, h_resource_storages, upTo_u8 h_damage_graphic_size h_damage_graphics, h_selection_sound, h_dying_sound, h_wwise_train_sound_id, h_wwise_damage_sound_id, h_wwise_selection_sound_id, h_wwise_dying_sound_id, h_old_attack_reaction, h_convert_terrain, h_name, h_copy_id, h_base_id, presentIff_of (has_speed _) h_speed, presentIff_of (has_dead_fish _) h_dead_fish, presentIff_of (has_bird _) h_bird, presentIff_of (has_type_50 _) h_type_50, presentIff_of (has_projectile _) h_projectile, presentIff_map (has_creatable _) h_creatable (fun c hc => Creatable.WFWith.withHotKey (k := 16000) hv hc), presentIff_of (has_building _) h_building⟩ ?_
    rintro b21 k21 b20 k20 b19 k19 b18 k18 b17 k17 b16 k16 b15 k15 b14 k14 b13 k13 b12 k12 b11 k11 b10 k10 b9 k9 b8 k8 b7 k7 b6 k6 b5 k5 b4 k4 b3 ⟨rfl, k3⟩ b2 k2 b1 k1 b0 k0
    have k' : writeIf (type_ ≠ UnitType.AoeTrees ∧ type_ ≥ UnitType.Flag ∧ type_ ≥ UnitType.Creatable)
        (fun x => writeClass Creatable.toBytes x v) (creatable.map (Creatable.withHotKey hot_key)) = .ok b20 := by
      rw [← k20]
      cases creatable with
      | none => rfl
      | some c =>
        have hw : Creatable.WFWith v 16000 c := h_creatable.2 c rfl
        simp only [Option.map_some, writeIf, writeClass, Creatable.toBytes_withHotKey hv hot_key (hw.nonempty hv)]
    rw [Unit.toBytes, if_neg hg, Unit.toBytes84]
    simp only [k15, k16, k17, k18, k19, k', k21, py_bind_ok]
    exact joinB_cons_ok k0 ((joinB_single _).trans (joinB_cons_ok k1 (joinB_cons_ok k2 (joinB_cons_ok k3 (joinB_cons_ok k4 (joinB_cons_ok k5 (joinB_cons_ok k6 (joinB_cons_ok k7 (joinB_cons_ok k8 (joinB_cons_ok k9 (joinB_cons_ok k10 (joinB_cons_ok k11 (joinB_cons_ok k12 (joinB_cons_ok k13 (joinB_cons_ok k14 (joinB_cons_ok rfl (joinB_cons_ok rfl (joinB_cons_ok rfl (joinB_cons_ok rfl (joinB_cons_ok rfl (joinB_cons_ok rfl (joinB_cons_ok rfl rfl))))))))))))))))))))))

end Genie
