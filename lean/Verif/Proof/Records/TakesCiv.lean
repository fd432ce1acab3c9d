import Verif.Proof.Records.TakesUnits
import Verif.Proof.Records.LaxUnits
/-! # Whatever is accepted for the items of a record is read: creatables, units, civilizations -/

namespace Genie

theorem TakesR.two {v : Version} {r : Reader α} {a b : List Item} {R : α → Prop} (h : TakesR v r (List.flatten [a, b]) R) :
    TakesR v r (a ++ b) R := by simpa using h

set_option maxRecDepth 4000 in
theorem Creatable.takes {v : Version} {x : Creatable} (h : Creatable.WF v x) :
    Takes v Creatable.fromBytes (Creatable.layout v x) x := by
  have h : Creatable.WFWith v 16000 x := h
  obtain ⟨x_resource_costs, x_train_locations, x_rear_attack_modifier, x_flank_attack_modifier, x_creatable_type, x_hero_mode, x_garrison_graphic, x_spawning_graphic, x_upgrade_graphic, x_hero_glow_graphic, x_idle_attack_graphic, x_max_charge, x_recharge_rate, x_charge_event, x_charge_type, x_charge_target, x_charge_projectile_unit, x_attack_priority, x_invulnerability_level, x_button_icon_id, x_button_short_tooltip_id, x_button_extended_tooltip_id, x_button_hotkey_action, x_min_conversion_time_mod, x_max_conversion_time_mod, x_conversion_chance_mod, x_total_projectiles, x_max_total_projectiles, x_projectile_spawning_area, x_secondary_projectile_unit, x_special_graphic, x_special_ability, x_displayed_pierce_armour⟩ := x
  obtain ⟨h_resource_costs, h_train_locations, h_rear_attack_modifier, h_flank_attack_modifier, h_creatable_type, h_hero_mode, h_garrison_graphic, h_spawning_graphic, h_upgrade_graphic, h_hero_glow_graphic, h_idle_attack_graphic, h_max_charge, h_recharge_rate, h_charge_event, h_charge_type, h_charge_target, h_charge_projectile_unit, h_attack_priority, h_invulnerability_level, h_button_icon_id, h_button_short_tooltip_id, h_button_extended_tooltip_id, h_button_hotkey_action, h_min_conversion_time_mod, h_max_conversion_time_mod, h_conversion_chance_mod, h_total_projectiles, h_max_total_projectiles, h_projectile_spawning_area, h_secondary_projectile_unit, h_special_graphic, h_special_ability, h_displayed_pierce_armour⟩ := h
  dsimp only at h_resource_costs h_train_locations h_rear_attack_modifier h_flank_attack_modifier h_creatable_type h_hero_mode h_garrison_graphic h_spawning_graphic h_upgrade_graphic h_hero_glow_graphic h_idle_attack_graphic h_max_charge h_recharge_rate h_charge_event h_charge_type h_charge_target h_charge_projectile_unit h_attack_priority h_invulnerability_level h_button_icon_id h_button_short_tooltip_id h_button_extended_tooltip_id h_button_hotkey_action h_min_conversion_time_mod h_max_conversion_time_mod h_conversion_chance_mod h_total_projectiles h_max_total_projectiles h_projectile_spawning_area h_secondary_projectile_unit h_special_graphic h_special_ability h_displayed_pierce_armour
  obtain ⟨hl_projectile_spawning_area, h_projectile_spawning_area⟩ := h_projectile_spawning_area
  obtain ⟨a1, a2, a3, rfl⟩ := length_eq_3 hl_projectile_spawning_area
  unfold Creatable.fromBytes Creatable.layout
  refine Takes.getVersion ?_
  by_cases hv : 88 ≤ v.num
  · have hg : v.ge .VER_88 = true := (ge_iff _ _).2 hv
    have hv4 : 84 ≤ v.num := by omega
    rw [if_pos hg, if_pos hv, ← List.flatten_cons]
    replace h_idle_attack_graphic := h_idle_attack_graphic.pos hv4
    replace h_charge_target := h_charge_target.pos hv4
    replace h_charge_projectile_unit := h_charge_projectile_unit.pos hv4
    replace h_attack_priority := h_attack_priority.pos hv4
    replace h_invulnerability_level := h_invulnerability_level.pos hv4
    replace h_button_icon_id := h_button_icon_id.pos hv4
    replace h_button_short_tooltip_id := h_button_short_tooltip_id.pos hv4
    replace h_button_extended_tooltip_id := h_button_extended_tooltip_id.pos hv4
    replace h_button_hotkey_action := h_button_hotkey_action.pos hv4
    replace h_train_locations := h_train_locations.pos hv
    unfold Creatable.fromBytes88
    refine Takes.bind (Takes.classArray3 h_resource_costs.1 fun y hy => ResourceCost.takes (h_resource_costs.2 y hy)) ?_
    refine TakesR.bind (TakesR.countI16 h_train_locations.1) fun _ _ => ?_
    refine Takes.bind (Takes.classArray (by assumption) fun y hy => TrainLocation.takes (h_train_locations.2 y hy)) ?_
    refine Takes.bind (Takes.unpack (cs := [Code.f, Code.f, Code.b, Code.b, Code.l, Code.h, Code.h, Code.h, Code.h, Code.f, Code.f, Code.h, Code.h, Code.h, Code.l, Code.b, Code.f, Code.h, Code.l, Code.l, Code.h, Code.f, Code.f, Code.f, Code.f, Code.b, Code.f, Code.f, Code.f, Code.l, Code.l, Code.b, Code.h]) (by decide) (by decide)
      ⟨h_rear_attack_modifier, h_flank_attack_modifier, h_creatable_type, h_hero_mode, h_garrison_graphic, h_spawning_graphic, h_upgrade_graphic, h_hero_glow_graphic, h_idle_attack_graphic, h_max_charge, h_recharge_rate, h_charge_event, h_charge_type, h_charge_target, h_charge_projectile_unit, h_attack_priority, h_invulnerability_level, h_button_icon_id, h_button_short_tooltip_id, h_button_extended_tooltip_id, h_button_hotkey_action, h_min_conversion_time_mod, h_max_conversion_time_mod, h_conversion_chance_mod, h_total_projectiles, h_max_total_projectiles, h_projectile_spawning_area _ (by simp), h_projectile_spawning_area _ (by simp), h_projectile_spawning_area _ (by simp), h_secondary_projectile_unit, h_special_graphic, h_special_ability, h_displayed_pierce_armour, trivial⟩ (by decide)) ?_
    dsimp only [popInt, popFloat, popDone, List.map, List.cons_append, List.nil_append]
    exact Takes.pure rfl
  · have hg := not_ge (w := .VER_88) hv
    rw [if_neg hg, if_neg hv]
    obtain ⟨⟨t1, t2, t3, t4⟩, rfl, ht1, ht2, ht3, ht4⟩ := h_train_locations.neg hv
    dsimp only at ht1 ht2 ht3 ht4
    subst ht4
    by_cases hv4 : 84 ≤ v.num
    · have hg4 : v.ge .VER_84 = true := (ge_iff _ _).2 hv4
      rw [if_pos hg4]
      dsimp only
      rw [if_pos hv4]
      refine TakesR.two ?_
      replace h_idle_attack_graphic := h_idle_attack_graphic.pos hv4
      replace h_charge_target := h_charge_target.pos hv4
      replace h_charge_projectile_unit := h_charge_projectile_unit.pos hv4
      replace h_attack_priority := h_attack_priority.pos hv4
      replace h_invulnerability_level := h_invulnerability_level.pos hv4
      replace h_button_icon_id := h_button_icon_id.pos hv4
      replace h_button_short_tooltip_id := h_button_short_tooltip_id.pos hv4
      replace h_button_extended_tooltip_id := h_button_extended_tooltip_id.pos hv4
      replace h_button_hotkey_action := h_button_hotkey_action.pos hv4
      unfold Creatable.fromBytes84
      refine Takes.bind (Takes.classArray3 h_resource_costs.1 fun y hy => ResourceCost.takes (h_resource_costs.2 y hy)) ?_
      refine Takes.bind (Takes.unpack (cs := [Code.h, Code.h, Code.b, Code.f, Code.f, Code.b, Code.b, Code.l, Code.h, Code.h, Code.h, Code.h, Code.f, Code.f, Code.h, Code.h, Code.h, Code.l, Code.b, Code.f, Code.h, Code.l, Code.l, Code.h, Code.f, Code.f, Code.f, Code.f, Code.b, Code.f, Code.f, Code.f, Code.l, Code.l, Code.b, Code.h]) (by decide) (by decide)
      ⟨ht1, ht2, ht3, h_rear_attack_modifier, h_flank_attack_modifier, h_creatable_type, h_hero_mode, h_garrison_graphic, h_spawning_graphic, h_upgrade_graphic, h_hero_glow_graphic, h_idle_attack_graphic, h_max_charge, h_recharge_rate, h_charge_event, h_charge_type, h_charge_target, h_charge_projectile_unit, h_attack_priority, h_invulnerability_level, h_button_icon_id, h_button_short_tooltip_id, h_button_extended_tooltip_id, h_button_hotkey_action, h_min_conversion_time_mod, h_max_conversion_time_mod, h_conversion_chance_mod, h_total_projectiles, h_max_total_projectiles, h_projectile_spawning_area _ (by simp), h_projectile_spawning_area _ (by simp), h_projectile_spawning_area _ (by simp), h_secondary_projectile_unit, h_special_graphic, h_special_ability, h_displayed_pierce_armour, trivial⟩ (by decide)) ?_
      dsimp only [popInt, popFloat, popDone, List.map, List.cons_append, List.nil_append]
      exact Takes.pure rfl
    · have hg4 := not_ge (w := .VER_84) hv4
      rw [if_neg hg4]
      dsimp only
      rw [if_neg hv4]
      refine TakesR.two ?_
      replace h_idle_attack_graphic := h_idle_attack_graphic.neg hv4
      subst h_idle_attack_graphic
      replace h_charge_target := h_charge_target.neg hv4
      subst h_charge_target
      replace h_charge_projectile_unit := h_charge_projectile_unit.neg hv4
      subst h_charge_projectile_unit
      replace h_attack_priority := h_attack_priority.neg hv4
      subst h_attack_priority
      replace h_invulnerability_level := h_invulnerability_level.neg hv4
      subst h_invulnerability_level
      replace h_button_icon_id := h_button_icon_id.neg hv4
      subst h_button_icon_id
      replace h_button_short_tooltip_id := h_button_short_tooltip_id.neg hv4
      subst h_button_short_tooltip_id
      replace h_button_extended_tooltip_id := h_button_extended_tooltip_id.neg hv4
      subst h_button_extended_tooltip_id
      replace h_button_hotkey_action := h_button_hotkey_action.neg hv4
      subst h_button_hotkey_action
      unfold Creatable.fromBytes78
      refine Takes.bind (Takes.classArray3 h_resource_costs.1 fun y hy => ResourceCost.takes (h_resource_costs.2 y hy)) ?_
      refine Takes.bind (Takes.unpack (cs := [Code.h, Code.h, Code.b, Code.f, Code.f, Code.b, Code.b, Code.l, Code.h, Code.h, Code.h, Code.f, Code.f, Code.h, Code.h, Code.f, Code.f, Code.f, Code.f, Code.b, Code.f, Code.f, Code.f, Code.l, Code.l, Code.b, Code.h]) (by decide) (by decide)
      ⟨ht1, ht2, ht3, h_rear_attack_modifier, h_flank_attack_modifier, h_creatable_type, h_hero_mode, h_garrison_graphic, h_spawning_graphic, h_upgrade_graphic, h_hero_glow_graphic, h_max_charge, h_recharge_rate, h_charge_event, h_charge_type, h_min_conversion_time_mod, h_max_conversion_time_mod, h_conversion_chance_mod, h_total_projectiles, h_max_total_projectiles, h_projectile_spawning_area _ (by simp), h_projectile_spawning_area _ (by simp), h_projectile_spawning_area _ (by simp), h_secondary_projectile_unit, h_special_graphic, h_special_ability, h_displayed_pierce_armour, trivial⟩ (by decide)) ?_
      dsimp only [popInt, popFloat, popDone, List.map, List.cons_append, List.nil_append]
      exact Takes.pure rfl

theorem Creatable.takesWith {v : Version} (hv : ¬ 88 ≤ v.num) {k : Int} {x : Creatable} (h : Creatable.WFWith v k x) :
    Takes v Creatable.fromBytes (Creatable.layout v x) (x.withHotKey 16000) := by
  have := Creatable.takes (h.withHotKey hv (k' := 16000))
  rwa [Creatable.layout_withHotKey hv _ ?_] at this
  obtain ⟨t, ht, -⟩ := h.train_locations.neg hv
  rw [ht]; simp

/-- An optional part written and read under equivalent conditions. -/
theorem Takes.optional {v : Version} {c d : Prop} [Decidable c] [Decidable d] {r : Reader α} {f : α → List Item}
    {o : Option α} {p : α → Prop} (hcd : c ↔ d) (h : PresentIff d p o)
    (ht : ∀ a, p a → Takes v r (f a) a) : Takes v (Genie.readIf c r) (Layout.part d f o) o := by
  refine Takes.readIf hcd ?_ ?_
  · intro hc
    obtain ⟨a, rfl⟩ := Option.isSome_iff_exists.1 (h.1.1 (hcd.1 hc))
    exact ⟨a, rfl, ht a (h.2 a rfl)⟩
  · intro hc
    cases o with
    | none => rfl
    | some a => exact absurd (hcd.2 (h.1.2 rfl)) hc

set_option maxRecDepth 4000 in
theorem Unit.takes {v : Version} {x : Unit} (h : Unit.WF v x) :
    Takes v Unit.fromBytes (Unit.layout v x) x := by
  obtain ⟨x_type, x_id, x_language_dll_name, x_language_dll_creation, x_class_, x_standing_graphic, x_dying_graphic, x_undead_graphic, x_undead_mode, x_hit_points, x_line_of_sight, x_garrison_capacity, x_collision_size_x, x_collision_size_y, x_collision_size_z, x_train_sound, x_damage_sound, x_dead_unit_id, x_blood_unit_id, x_sort_number, x_can_be_built_on, x_icon_id, x_hide_in_editor, x_old_portrait_pict, x_enabled, x_disabled, x_placement_side_terrain, x_placement_terrain, x_clearance_size, x_hill_mode, x_fog_visibility, x_terrain_restriction, x_fly_mode, x_resource_capacity, x_resource_decay, x_blast_defense_level, x_combat_level, x_interaction_mode, x_minimap_mode, x_interface_kind, x_multiple_attribute_mode, x_minimap_color, x_language_dll_help, x_language_dll_hotkey_text, x_hot_key, x_recyclable, x_enable_auto_gather, x_create_doppelganger_on_death, x_resource_gather_group, x_occlusion_mode, x_obstruction_type, x_obstruction_class, x_trait, x_civilization, x_nothing, x_selection_effect, x_editor_selection_colour, x_outline_size_x, x_outline_size_y, x_outline_size_z, x_scenario_triggers_1, x_scenario_triggers_2, x_resource_storages, x_damage_graphics, x_selection_sound, x_dying_sound, x_wwise_train_sound_id, x_wwise_damage_sound_id, x_wwise_selection_sound_id, x_wwise_dying_sound_id, x_old_attack_reaction, x_convert_terrain, x_name, x_copy_id, x_base_id, x_speed, x_dead_fish, x_bird, x_type_50, x_projectile, x_creatable, x_building⟩ := x
  obtain ⟨h_type, h_id, h_language_dll_name, h_language_dll_creation, h_class_, h_standing_graphic, h_dying_graphic, h_undead_graphic, h_undead_mode, h_hit_points, h_line_of_sight, h_garrison_capacity, h_collision_size_x, h_collision_size_y, h_collision_size_z, h_train_sound, h_damage_sound, h_dead_unit_id, h_blood_unit_id, h_sort_number, h_can_be_built_on, h_icon_id, h_hide_in_editor, h_old_portrait_pict, h_enabled, h_disabled, h_placement_side_terrain, h_placement_terrain, h_clearance_size, h_hill_mode, h_fog_visibility, h_terrain_restriction, h_fly_mode, h_resource_capacity, h_resource_decay, h_blast_defense_level, h_combat_level, h_interaction_mode, h_minimap_mode, h_interface_kind, h_multiple_attribute_mode, h_minimap_color, h_language_dll_help, h_language_dll_hotkey_text, h_hot_key, h_recyclable, h_enable_auto_gather, h_create_doppelganger_on_death, h_resource_gather_group, h_occlusion_mode, h_obstruction_type, h_obstruction_class, h_trait, h_civilization, h_nothing, h_selection_effect, h_editor_selection_colour, h_outline_size_x, h_outline_size_y, h_outline_size_z, h_scenario_triggers_1, h_scenario_triggers_2, h_resource_storages, h_damage_graphics, h_selection_sound, h_dying_sound, h_wwise_train_sound_id, h_wwise_damage_sound_id, h_wwise_selection_sound_id, h_wwise_dying_sound_id, h_old_attack_reaction, h_convert_terrain, h_name, h_copy_id, h_base_id, h_speed, h_dead_fish, h_bird, h_type_50, h_projectile, h_creatable, h_building⟩ := h
  dsimp only at h_type h_id h_language_dll_name h_language_dll_creation h_class_ h_standing_graphic h_dying_graphic h_undead_graphic h_undead_mode h_hit_points h_line_of_sight h_garrison_capacity h_collision_size_x h_collision_size_y h_collision_size_z h_train_sound h_damage_sound h_dead_unit_id h_blood_unit_id h_sort_number h_can_be_built_on h_icon_id h_hide_in_editor h_old_portrait_pict h_enabled h_disabled h_placement_side_terrain h_placement_terrain h_clearance_size h_hill_mode h_fog_visibility h_terrain_restriction h_fly_mode h_resource_capacity h_resource_decay h_blast_defense_level h_combat_level h_interaction_mode h_minimap_mode h_interface_kind h_multiple_attribute_mode h_minimap_color h_language_dll_help h_language_dll_hotkey_text h_hot_key h_recyclable h_enable_auto_gather h_create_doppelganger_on_death h_resource_gather_group h_occlusion_mode h_obstruction_type h_obstruction_class h_trait h_civilization h_nothing h_selection_effect h_editor_selection_colour h_outline_size_x h_outline_size_y h_outline_size_z h_scenario_triggers_1 h_scenario_triggers_2 h_resource_storages h_damage_graphics h_selection_sound h_dying_sound h_wwise_train_sound_id h_wwise_damage_sound_id h_wwise_selection_sound_id h_wwise_dying_sound_id h_old_attack_reaction h_convert_terrain h_name h_copy_id h_base_id h_speed h_dead_fish h_bird h_type_50 h_projectile h_creatable h_building
  obtain ⟨hl_standing_graphic, h_standing_graphic⟩ := h_standing_graphic
  obtain ⟨standing_graphic_1, standing_graphic_2, rfl⟩ := length_eq_2 hl_standing_graphic
  obtain ⟨hl_placement_side_terrain, h_placement_side_terrain⟩ := h_placement_side_terrain
  obtain ⟨placement_side_terrain_1, placement_side_terrain_2, rfl⟩ := length_eq_2 hl_placement_side_terrain
  obtain ⟨hl_placement_terrain, h_placement_terrain⟩ := h_placement_terrain
  obtain ⟨placement_terrain_1, placement_terrain_2, rfl⟩ := length_eq_2 hl_placement_terrain
  obtain ⟨hl_clearance_size, h_clearance_size⟩ := h_clearance_size
  obtain ⟨clearance_size_1, clearance_size_2, rfl⟩ := length_eq_2 hl_clearance_size
  unfold Unit.fromBytes Unit.layout
  refine Takes.getVersion ?_
  by_cases hv : 88 ≤ v.num
  · have hg : v.ge .VER_88 = true := (ge_iff _ _).2 hv
    rw [if_pos hg]
    simp only [if_pos hv]
    replace h_hot_key := h_hot_key.pos hv
    unfold Unit.fromBytes88
    have t_speed := Takes.optional (v := v) (has_speed _) h_speed fun a ha => Takes.float ha
    have t_dead_fish := Takes.optional (v := v) (has_dead_fish _) h_dead_fish fun a ha => Takes.class_ (DeadFish.takes ha)
    have t_bird := Takes.optional (v := v) (has_bird _) h_bird fun a ha => Takes.class_ (Bird.takes ha)
    have t_type_50 := Takes.optional (v := v) (has_type_50 _) h_type_50 fun a ha => Takes.class_ (Type50.takes ha)
    have t_projectile := Takes.optional (v := v) (has_projectile _) h_projectile fun a ha => Takes.class_ (Projectile.takes ha)
    have t_creatable := Takes.optional (v := v) (has_creatable _) h_creatable fun a ha => Takes.class_ (Creatable.takes (ha.of_ge hv))
    have t_building := Takes.optional (v := v) (has_building _) h_building fun a ha => Takes.class_ (Building.takes ha)
    refine Takes.bind (Takes.unpack (cs := [Code.b, Code.h, Code.l, Code.l, Code.h, Code.h, Code.h, Code.h, Code.h, Code.b, Code.h, Code.f, Code.b, Code.f, Code.f, Code.f, Code.h, Code.h, Code.h, Code.h, Code.b, Code.b, Code.h, Code.b, Code.h, Code.b, Code.b, Code.h, Code.h, Code.h, Code.h, Code.f, Code.f, Code.b, Code.b, Code.h, Code.b, Code.h, Code.f, Code.b, Code.b, Code.b, Code.b, Code.b, Code.f, Code.b, Code.l, Code.l, Code.b, Code.b, Code.b, Code.b, Code.b, Code.b, Code.b, Code.b, Code.b, Code.h, Code.b, Code.b, Code.f, Code.f, Code.f, Code.l, Code.l]) (by decide) (by decide)
        ⟨h_type, h_id, h_language_dll_name, h_language_dll_creation, h_class_, h_standing_graphic _ (by simp), h_standing_graphic _ (by simp), h_dying_graphic, h_undead_graphic, h_undead_mode, h_hit_points, h_line_of_sight, h_garrison_capacity, h_collision_size_x, h_collision_size_y, h_collision_size_z, h_train_sound, h_damage_sound, h_dead_unit_id, h_blood_unit_id, h_sort_number, h_can_be_built_on, h_icon_id, h_hide_in_editor, h_old_portrait_pict, h_enabled, h_disabled, h_placement_side_terrain _ (by simp), h_placement_side_terrain _ (by simp), h_placement_terrain _ (by simp), h_placement_terrain _ (by simp), h_clearance_size _ (by simp), h_clearance_size _ (by simp), h_hill_mode, h_fog_visibility, h_terrain_restriction, h_fly_mode, h_resource_capacity, h_resource_decay, h_blast_defense_level, h_combat_level, h_interaction_mode, h_minimap_mode, h_interface_kind, h_multiple_attribute_mode, h_minimap_color, h_language_dll_help, h_language_dll_hotkey_text, h_recyclable, h_enable_auto_gather, h_create_doppelganger_on_death, h_resource_gather_group, h_occlusion_mode, h_obstruction_type, h_obstruction_class, h_trait, h_civilization, h_nothing, h_selection_effect, h_editor_selection_colour, h_outline_size_x, h_outline_size_y, h_outline_size_z, h_scenario_triggers_1, h_scenario_triggers_2, trivial⟩ (by decide)) ?_
    dsimp only [popInt, popFloat, popDone, List.map, List.cons_append, List.nil_append]
    refine Takes.bind (Takes.classArray3 h_resource_storages.1 fun y hy => ResourceStorage.takes (h_resource_storages.2 y hy)) ?_
    refine TakesR.bind (TakesR.countU8 h_damage_graphics.1) fun _ _ => ?_
    refine Takes.bind (Takes.classArray (by assumption) fun y hy => DamageGraphic.takes (h_damage_graphics.2 y hy)) ?_
    refine Takes.bind (Takes.int16 h_selection_sound) ?_
    refine Takes.bind (Takes.int16 h_dying_sound) ?_
    refine Takes.bind (Takes.int32 h_wwise_train_sound_id) ?_
    refine Takes.bind (Takes.int32 h_wwise_damage_sound_id) ?_
    refine Takes.bind (Takes.int32 h_wwise_selection_sound_id) ?_
    refine Takes.bind (Takes.int32 h_wwise_dying_sound_id) ?_
    refine Takes.bind (Takes.int8 h_old_attack_reaction) ?_
    refine Takes.bind (Takes.int8 h_convert_terrain) ?_
    refine Takes.bind (Takes.debugString h_name) ?_
    refine Takes.bind (Takes.int16 h_copy_id) ?_
    refine Takes.bind (Takes.int16 h_base_id) ?_
    refine Takes.bind t_speed ?_
    refine Takes.bind t_dead_fish ?_
    refine Takes.bind t_bird ?_
    refine Takes.bind t_type_50 ?_
    refine Takes.bind t_projectile ?_
    refine Takes.bind t_creatable ?_
    refine Takes.bind t_building ?_
    refine Takes.pure ?_
    have : Creatable.firstHotKey x_creatable 16000 = x_hot_key := by
      cases x_creatable with
      | none => exact (h_hot_key.2 (by simp)).symm
      | some c =>
        unfold Creatable.firstHotKey
        cases hc : c.train_locations with
        | nil => simp only [hc]; exact (h_hot_key.2 (by rintro c' ⟨⟩; exact hc)).symm
        | cons t ts => simp only [hc]; exact (h_hot_key.1 c t ts rfl hc).symm
    rw [this]
  · have hg := not_ge (w := .VER_88) hv
    rw [if_neg hg]
    simp only [if_neg hv]
    replace h_hot_key := h_hot_key.neg hv
    unfold Unit.fromBytes84
    have t_speed := Takes.optional (v := v) (has_speed _) h_speed fun a ha => Takes.float ha
    have t_dead_fish := Takes.optional (v := v) (has_dead_fish _) h_dead_fish fun a ha => Takes.class_ (DeadFish.takes ha)
    have t_bird := Takes.optional (v := v) (has_bird _) h_bird fun a ha => Takes.class_ (Bird.takes ha)
    have t_type_50 := Takes.optional (v := v) (has_type_50 _) h_type_50 fun a ha => Takes.class_ (Type50.takes ha)
    have t_projectile := Takes.optional (v := v) (has_projectile _) h_projectile fun a ha => Takes.class_ (Projectile.takes ha)
    have t_building := Takes.optional (v := v) (has_building _) h_building fun a ha => Takes.class_ (Building.takes ha)
    have t_creatable : Takes v
        (readIf (x_type ≠ UnitType.AoeTrees ∧ x_type ≥ UnitType.Flag ∧ x_type ≥ UnitType.Creatable)
          (readClass Creatable.fromBytes))
        (Layout.part (x_type ≠ 90 ∧ 70 ≤ x_type) (Creatable.layout v) x_creatable)
        (x_creatable.map (Creatable.withHotKey 16000)) := by
      cases x_creatable with
      | none =>
        have hn : ¬ (x_type ≠ UnitType.AoeTrees ∧ x_type ≥ UnitType.Flag ∧ x_type ≥ UnitType.Creatable) := by
          intro k
          have := h_creatable.1.1 ((has_creatable _).1 k)
          simp at this
        rw [Genie.readIf, Layout.part, if_neg hn, if_neg (fun k => hn ((has_creatable _).2 k))]
        exact Takes.pure rfl
      | some c =>
        have hp := (has_creatable _).2 (h_creatable.1.2 rfl)
        rw [Genie.readIf, Layout.part, if_pos hp, if_pos ((has_creatable _).1 hp)]
        exact Takes.map (Creatable.takesWith hv (h_creatable.2 c rfl)) (Fetch.pure rfl)
    refine Takes.bind (Takes.unpack (cs := [Code.b, Code.h, Code.l, Code.l, Code.h, Code.h, Code.h, Code.h, Code.h, Code.b, Code.h, Code.f, Code.b, Code.f, Code.f, Code.f, Code.h, Code.h, Code.h, Code.h, Code.b, Code.b, Code.h, Code.b, Code.h, Code.b, Code.b, Code.h, Code.h, Code.h, Code.h, Code.f, Code.f, Code.b, Code.b, Code.h, Code.b, Code.h, Code.f, Code.b, Code.b, Code.b, Code.b, Code.b, Code.f, Code.b, Code.l, Code.l, Code.l, Code.b, Code.b, Code.b, Code.b, Code.b, Code.b, Code.b, Code.b, Code.b, Code.h, Code.b, Code.b, Code.f, Code.f, Code.f, Code.l, Code.l]) (by decide) (by decide)
        ⟨h_type, h_id, h_language_dll_name, h_language_dll_creation, h_class_, h_standing_graphic _ (by simp), h_standing_graphic _ (by simp), h_dying_graphic, h_undead_graphic, h_undead_mode, h_hit_points, h_line_of_sight, h_garrison_capacity, h_collision_size_x, h_collision_size_y, h_collision_size_z, h_train_sound, h_damage_sound, h_dead_unit_id, h_blood_unit_id, h_sort_number, h_can_be_built_on, h_icon_id, h_hide_in_editor, h_old_portrait_pict, h_enabled, h_disabled, h_placement_side_terrain _ (by simp), h_placement_side_terrain _ (by simp), h_placement_terrain _ (by simp), h_placement_terrain _ (by simp), h_clearance_size _ (by simp), h_clearance_size _ (by simp), h_hill_mode, h_fog_visibility, h_terrain_restriction, h_fly_mode, h_resource_capacity, h_resource_decay, h_blast_defense_level, h_combat_level, h_interaction_mode, h_minimap_mode, h_interface_kind, h_multiple_attribute_mode, h_minimap_color, h_language_dll_help, h_language_dll_hotkey_text, h_hot_key, h_recyclable, h_enable_auto_gather, h_create_doppelganger_on_death, h_resource_gather_group, h_occlusion_mode, h_obstruction_type, h_obstruction_class, h_trait, h_civilization, h_nothing, h_selection_effect, h_editor_selection_colour, h_outline_size_x, h_outline_size_y, h_outline_size_z, h_scenario_triggers_1, h_scenario_triggers_2, trivial⟩ (by decide)) ?_
    dsimp only [popInt, popFloat, popDone, List.map, List.cons_append, List.nil_append]
    refine Takes.bind (Takes.classArray3 h_resource_storages.1 fun y hy => ResourceStorage.takes (h_resource_storages.2 y hy)) ?_
    refine TakesR.bind (TakesR.countU8 h_damage_graphics.1) fun _ _ => ?_
    refine Takes.bind (Takes.classArray (by assumption) fun y hy => DamageGraphic.takes (h_damage_graphics.2 y hy)) ?_
    refine Takes.bind (Takes.int16 h_selection_sound) ?_
    refine Takes.bind (Takes.int16 h_dying_sound) ?_
    refine Takes.bind (Takes.int32 h_wwise_train_sound_id) ?_
    refine Takes.bind (Takes.int32 h_wwise_damage_sound_id) ?_
    refine Takes.bind (Takes.int32 h_wwise_selection_sound_id) ?_
    refine Takes.bind (Takes.int32 h_wwise_dying_sound_id) ?_
    refine Takes.bind (Takes.int8 h_old_attack_reaction) ?_
    refine Takes.bind (Takes.int8 h_convert_terrain) ?_
    refine Takes.bind (Takes.debugString h_name) ?_
    refine Takes.bind (Takes.int16 h_copy_id) ?_
    refine Takes.bind (Takes.int16 h_base_id) ?_
    refine Takes.bind t_speed ?_
    refine Takes.bind t_dead_fish ?_
    refine Takes.bind t_bird ?_
    refine Takes.bind t_type_50 ?_
    refine Takes.bind t_projectile ?_
    refine Takes.bind t_creatable ?_
    refine Takes.bind t_building ?_
    refine Takes.pure ?_
    have : (x_creatable.map (Creatable.withHotKey 16000)).map (Creatable.withHotKey x_hot_key) = x_creatable := by
      cases x_creatable with
      | none => rfl
      | some c => simp only [Option.map_some]; rw [(h_creatable.2 c rfl).withHotKey_self hv]
    rw [this]

theorem Civ.takes {v : Version} {x : Civ} (h : Civ.WF v x) :
    Takes v Civ.fromBytes (Civ.layout v x) x := by
  obtain ⟨x_player_type, x_name, x_tech_tree_id, x_team_bonus_id, x_resources, x_icon_set, x_units⟩ := x
  obtain ⟨h_player_type, h_name, h_tech_tree_id, h_team_bonus_id, h_resources, h_icon_set, h_units⟩ := h
  dsimp only at h_player_type h_name h_tech_tree_id h_team_bonus_id h_resources h_icon_set h_units
  unfold Civ.fromBytes Civ.layout
  refine Takes.bind (Takes.int8 h_player_type) ?_
  refine Takes.bind (Takes.debugString h_name) ?_
  refine TakesR.bind (TakesR.countI16 h_resources.1) fun _ _ => ?_
  refine Takes.bind (Takes.int16 h_tech_tree_id) ?_
  refine Takes.bind (Takes.int16 h_team_bonus_id) ?_
  refine Takes.bind (Takes.floatArray (by assumption) h_resources.2) ?_
  refine Takes.bind (Takes.int8 h_icon_set) ?_
  refine TakesR.bind (TakesR.countI16 h_units.1) fun _ _ => ?_
  refine TakesR.bind (TakesR.pointers (by assumption)) fun _ _ => ?_
  refine Takes.bind (Takes.classArrayWithPointers (by assumption) (by assumption) fun o ho y hy => Unit.takes (h_units.2 o ho y hy)) ?_
  exact Takes.pure rfl

end Genie
