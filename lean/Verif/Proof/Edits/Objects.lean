import Verif.Spec.EditObjects
import Verif.Proof.Edits.ObjectsBasic
import Verif.Proof.Edits.FieldDefs
/-! # The tables of edits in terms of objects (generated by `tools/gen_edit_objects.py`) -/

namespace Genie
open Layout

theorem restrictions_none {n i : Nat} {x : Genie.DatFile} (h : Slot.get (.DatFile_terrain_restrictions n i) x = none)
    (hr : Slot.Right (.DatFile_terrain_restrictions n i) x) : (DatFile.terrain_restrictions x)[i]? = none := by
  have h : (DatFile.terrain_restrictions x)[i]?.filter (·.passable_buildable_dmg_multiplier.length = n) = none := h
  have hr : ∀ r, (DatFile.terrain_restrictions x)[i]? = some r → r.passable_buildable_dmg_multiplier.length = n := hr
  cases e : (DatFile.terrain_restrictions x)[i]? with
  | none => rfl
  | some r => simp [e, Option.filter, hr r e] at h

theorem EffectCommand.names_nodup (x : Genie.EffectCommand) : ((EffectCommand.object x).attrs.map Prod.fst).Nodup := by
  show ([lit "type", lit "a", lit "b", lit "c", lit "d"] : List PyStr).Nodup
  decide +kernel

theorem Effect.names_nodup (x : Genie.Effect) : ((Effect.object x).attrs.map Prod.fst).Nodup := by
  show ([lit "name", lit "effect_commands"] : List PyStr).Nodup
  decide +kernel

theorem SoundItem.names_nodup (x : Genie.SoundItem) : ((SoundItem.object x).attrs.map Prod.fst).Nodup := by
  show ([lit "filename", lit "resource_id", lit "probability", lit "civilization", lit "icon_set"] : List PyStr).Nodup
  decide +kernel

theorem Sound.names_nodup (x : Genie.Sound) : ((Sound.object x).attrs.map Prod.fst).Nodup := by
  show ([lit "id", lit "play_delay", lit "cache_time", lit "total_probability", lit "items"] : List PyStr).Nodup
  decide +kernel

theorem PlayerColour.names_nodup (x : Genie.PlayerColour) : ((PlayerColour.object x).attrs.map Prod.fst).Nodup := by
  show ([lit "id", lit "player_color_base", lit "unit_outline_color", lit "unit_selection_color_1", lit "unit_selection_color_2", lit "minimap_color", lit "minimap_color_2", lit "minimap_color_3", lit "statistics_text"] : List PyStr).Nodup
  decide +kernel

theorem GraphicDelta.names_nodup (x : Genie.GraphicDelta) : ((GraphicDelta.object x).attrs.map Prod.fst).Nodup := by
  show ([lit "graphic_id", lit "padding_1", lit "sprite_ptr", lit "offset_x", lit "offset_y", lit "display_angle", lit "padding_2"] : List PyStr).Nodup
  decide +kernel

theorem GraphicAngleSound.names_nodup (x : Genie.GraphicAngleSound) : ((GraphicAngleSound.object x).attrs.map Prod.fst).Nodup := by
  show ([lit "frame_num", lit "sound_id", lit "wwise_sound_id", lit "frame_num_2", lit "sound_id_2", lit "wwise_sound_id_2", lit "frame_num_3", lit "sound_id_3", lit "wwise_sound_id_3"] : List PyStr).Nodup
  decide +kernel

theorem Graphic.names_nodup (x : Genie.Graphic) : ((Graphic.object x).attrs.map Prod.fst).Nodup := by
  show ([lit "name", lit "file_name", lit "particle_effect_name", lit "slp", lit "is_loaded", lit "old_color_flag", lit "layer", lit "player_color", lit "transparent_selection", lit "coordinates", lit "sound_id", lit "wwise_sound_id", lit "angle_sounds_used", lit "frame_count", lit "angle_count", lit "speed_multiplier", lit "frame_duration", lit "replay_delay", lit "sequence_type", lit "id", lit "mirroring_mode", lit "editor_flag", lit "deltas", lit "angle_sounds"] : List PyStr).Nodup
  decide +kernel

theorem TerrainPassGraphic.names_nodup (x : Genie.TerrainPassGraphic) : ((TerrainPassGraphic.object x).attrs.map Prod.fst).Nodup := by
  show ([lit "exit_tile_sprite_id", lit "enter_tile_sprite_id", lit "walk_tile_sprite_id", lit "walk_sprite_rate"] : List PyStr).Nodup
  decide +kernel

theorem TerrainRestriction.names_nodup (x : Genie.TerrainRestriction) : ((TerrainRestriction.object x).attrs.map Prod.fst).Nodup := by
  show ([lit "passable_buildable_dmg_multiplier", lit "terrain_pass_graphics"] : List PyStr).Nodup
  decide +kernel

theorem FrameData.names_nodup (x : Genie.FrameData) : ((FrameData.object x).attrs.map Prod.fst).Nodup := by
  show ([lit "frame_count", lit "angle_count", lit "shape_id"] : List PyStr).Nodup
  decide +kernel

theorem Terrain.names_nodup (x : Genie.Terrain) : ((Terrain.object x).attrs.map Prod.fst).Nodup := by
  show ([lit "enabled", lit "random", lit "is_water", lit "hide_in_editor", lit "string_id", lit "name", lit "name_2", lit "slp", lit "shape_ptr", lit "sound_id", lit "wwise_sound_id", lit "wwise_sound_stop_id", lit "blend_priority", lit "blend_type", lit "overlay_mask_name", lit "colors", lit "cliff_colors", lit "passable_terrain", lit "impassable_terrain", lit "is_animated", lit "animation_frames", lit "pause_frames", lit "interval", lit "pause_between_loops", lit "frame", lit "draw_frame", lit "animate_last", lit "frame_changed", lit "drawn", lit "frame_data", lit "terrain_to_draw", lit "terrain_dimensions", lit "terrain_unit_masked_density", lit "terrain_unit_id", lit "terrain_unit_density", lit "terrain_unit_centering", lit "number_of_terrain_units_used", lit "phantom"] : List PyStr).Nodup
  decide +kernel

theorem TileSize.names_nodup (x : Genie.TileSize) : ((TileSize.object x).attrs.map Prod.fst).Nodup := by
  show ([lit "width", lit "height", lit "delta_y"] : List PyStr).Nodup
  decide +kernel

theorem TerrainBlock.names_nodup (x : Genie.TerrainBlock) : ((TerrainBlock.object x).attrs.map Prod.fst).Nodup := by
  show ([lit "virtual_function_ptr", lit "map_pointer", lit "map_width", lit "map_height", lit "world_width", lit "world_height", lit "tile_sizes", lit "padding_ts", lit "terrains", lit "map_min_x", lit "map_min_y", lit "map_max_x", lit "map_max_y", lit "map_max_x_plus_1", lit "map_max_y_plus_1", lit "terrains_used_2", lit "borders_used", lit "max_terrain", lit "tile_width", lit "tile_height", lit "tile_half_height", lit "tile_half_width", lit "elev_height", lit "cur_row", lit "cur_col", lit "block_beg_row", lit "block_end_row", lit "block_beg_col", lit "block_end_col", lit "search_map_ptr", lit "search_map_rows_ptr", lit "any_frame_change", lit "map_visible_flag", lit "fog_flag"] : List PyStr).Nodup
  decide +kernel

theorem MapUnit.names_nodup (x : Genie.MapUnit) : ((MapUnit.object x).attrs.map Prod.fst).Nodup := by
  show ([lit "unit", lit "host_terrain", lit "group_placing", lit "scale_flag", lit "padding_1", lit "objects_per_group", lit "fluctuation", lit "groups_per_player", lit "group_arena", lit "player_id", lit "set_place_for_all_players", lit "min_distance_to_players", lit "max_distance_to_players"] : List PyStr).Nodup
  decide +kernel

theorem MapTerrain.names_nodup (x : Genie.MapTerrain) : ((MapTerrain.object x).attrs.map Prod.fst).Nodup := by
  show ([lit "proportion", lit "terrain", lit "clump_count", lit "edge_spacing", lit "placement_terrain", lit "clumpiness"] : List PyStr).Nodup
  decide +kernel

theorem MapLand.names_nodup (x : Genie.MapLand) : ((MapLand.object x).attrs.map Prod.fst).Nodup := by
  show ([lit "land_id", lit "terrain", lit "land_spacing", lit "base_size", lit "zone", lit "placement_type", lit "padding_1", lit "base_x", lit "base_y", lit "land_proportion", lit "by_player_flag", lit "padding_2", lit "start_area_radius", lit "terrain_edge_fade", lit "clumpiness"] : List PyStr).Nodup
  decide +kernel

theorem MapElevation.names_nodup (x : Genie.MapElevation) : ((MapElevation.object x).attrs.map Prod.fst).Nodup := by
  show ([lit "proportion", lit "terrain", lit "clump_count", lit "base_terrain", lit "base_elevation", lit "tile_spacing"] : List PyStr).Nodup
  decide +kernel

theorem MapInfo.names_nodup (x : Genie.MapInfo) : ((MapInfo.object x).attrs.map Prod.fst).Nodup := by
  show ([lit "map_id", lit "border_south_west", lit "border_north_west", lit "border_north_east", lit "border_south_east", lit "border_usage", lit "water_shape", lit "base_terrain", lit "land_coverage", lit "unused_id", lit "map_lands_size", lit "map_lands_ptr", lit "map_lands", lit "map_terrains_size", lit "map_terrains_ptr", lit "map_terrains", lit "map_units_size", lit "map_units_ptr", lit "map_units", lit "map_elevations_size", lit "map_elevations_ptr", lit "map_elevations"] : List PyStr).Nodup
  decide +kernel

theorem RandomMaps.names_nodup (x : Genie.RandomMaps) : ((RandomMaps.object x).attrs.map Prod.fst).Nodup := by
  show ([lit "random_maps_ptr", lit "map_info_1", lit "map_info_2"] : List PyStr).Nodup
  decide +kernel

theorem ResearchResourceCost.names_nodup (x : Genie.ResearchResourceCost) : ((ResearchResourceCost.object x).attrs.map Prod.fst).Nodup := by
  show ([lit "type", lit "amount", lit "flag"] : List PyStr).Nodup
  decide +kernel

theorem ResearchLocation.names_nodup (x : Genie.ResearchLocation) : ((ResearchLocation.object x).attrs.map Prod.fst).Nodup := by
  show ([lit "location_id", lit "research_time", lit "button_id", lit "hot_key_id"] : List PyStr).Nodup
  decide +kernel

theorem Tech.names_nodup (x : Genie.Tech) : ((Tech.object x).attrs.map Prod.fst).Nodup := by
  show ([lit "required_techs", lit "resource_costs", lit "required_tech_count", lit "civ", lit "full_tech_mode", lit "language_dll_name", lit "language_dll_description", lit "effect_id", lit "type", lit "icon_id", lit "language_dll_help", lit "language_dll_tech_tree", lit "name", lit "repeatable", lit "research_locations"] : List PyStr).Nodup
  decide +kernel

theorem Common.names_nodup (x : Genie.Common) : ((Common.object x).attrs.map Prod.fst).Nodup := by
  show ([lit "slots_used", lit "unit_research", lit "mode"] : List PyStr).Nodup
  decide +kernel

theorem TechTreeAge.names_nodup (x : Genie.TechTreeAge) : ((TechTreeAge.object x).attrs.map Prod.fst).Nodup := by
  show ([lit "id", lit "status", lit "buildings", lit "units", lit "techs", lit "common", lit "num_building_levels", lit "buildings_per_zone", lit "group_length_per_zone", lit "max_age_length", lit "line_mode"] : List PyStr).Nodup
  decide +kernel

theorem BuildingConnection.names_nodup (x : Genie.BuildingConnection) : ((BuildingConnection.object x).attrs.map Prod.fst).Nodup := by
  show ([lit "id", lit "status", lit "buildings", lit "units", lit "techs", lit "common", lit "location_in_age", lit "units_techs_total", lit "units_techs_first", lit "line_mode", lit "enabling_research"] : List PyStr).Nodup
  decide +kernel

theorem UnitConnection.names_nodup (x : Genie.UnitConnection) : ((UnitConnection.object x).attrs.map Prod.fst).Nodup := by
  show ([lit "id", lit "status", lit "upper_building", lit "common", lit "vertical_line", lit "units", lit "location_in_age", lit "required_research", lit "line_mode", lit "enabling_research"] : List PyStr).Nodup
  decide +kernel

theorem ResearchConnection.names_nodup (x : Genie.ResearchConnection) : ((ResearchConnection.object x).attrs.map Prod.fst).Nodup := by
  show ([lit "id", lit "status", lit "upper_building", lit "buildings", lit "units", lit "techs", lit "common", lit "vertical_line", lit "location_in_age", lit "line_mode"] : List PyStr).Nodup
  decide +kernel

theorem TechTree.names_nodup (x : Genie.TechTree) : ((TechTree.object x).attrs.map Prod.fst).Nodup := by
  show ([lit "total_unit_tech_groups", lit "tech_tree_ages", lit "building_connections", lit "unit_connections", lit "research_connections"] : List PyStr).Nodup
  decide +kernel

theorem Task.names_nodup (x : Genie.Task) : ((Task.object x).attrs.map Prod.fst).Nodup := by
  show ([lit "task_type", lit "id", lit "is_default", lit "action_type", lit "class_id", lit "unit_id", lit "terrain_id", lit "resource_in", lit "resource_multiplier", lit "resource_out", lit "unused_resource", lit "work_value_1", lit "work_value_2", lit "work_range", lit "auto_search_targets", lit "search_wait_time", lit "enable_targeting", lit "combat_level_flag", lit "gather_type", lit "work_flag_2", lit "target_diplomacy", lit "carry_check", lit "pick_for_construction", lit "moving_graphic_id", lit "proceeding_graphic_id", lit "working_graphic_id", lit "carrying_graphic_id", lit "resource_gathering_sound_id", lit "resource_deposit_sound_id", lit "wwise_resource_gathering_sound_id", lit "wwise_resource_deposit_sound_id", lit "enabled"] : List PyStr).Nodup
  decide +kernel

theorem ResourceStorage.names_nodup (x : Genie.ResourceStorage) : ((ResourceStorage.object x).attrs.map Prod.fst).Nodup := by
  show ([lit "type", lit "amount", lit "flag"] : List PyStr).Nodup
  decide +kernel

theorem DamageGraphic.names_nodup (x : Genie.DamageGraphic) : ((DamageGraphic.object x).attrs.map Prod.fst).Nodup := by
  show ([lit "graphic_id", lit "damage_percent", lit "apply_mode"] : List PyStr).Nodup
  decide +kernel

theorem DeadFish.names_nodup (x : Genie.DeadFish) : ((DeadFish.object x).attrs.map Prod.fst).Nodup := by
  show ([lit "walking_graphic", lit "running_graphic", lit "rotation_speed", lit "old_size_class", lit "tracking_unit", lit "tracking_unit_mode", lit "tracking_unit_density", lit "old_move_algorithm", lit "turn_radius", lit "turn_radius_speed", lit "max_yaw_per_second_moving", lit "stationary_yaw_revolution_time", lit "max_yaw_per_second_stationary", lit "min_collision_size_multiplier"] : List PyStr).Nodup
  decide +kernel

theorem Bird.names_nodup (x : Genie.Bird) : ((Bird.object x).attrs.map Prod.fst).Nodup := by
  show ([lit "default_task_id", lit "search_radius", lit "work_rate", lit "drop_sites", lit "task_swap_group", lit "attack_sound", lit "move_sound", lit "wwise_attack_sound_id", lit "wwise_move_sound_id", lit "run_pattern", lit "tasks"] : List PyStr).Nodup
  decide +kernel

theorem AttackOrArmor.names_nodup (x : Genie.AttackOrArmor) : ((AttackOrArmor.object x).attrs.map Prod.fst).Nodup := by
  show ([lit "class_", lit "amount"] : List PyStr).Nodup
  decide +kernel

theorem Type50.names_nodup (x : Genie.Type50) : ((Type50.object x).attrs.map Prod.fst).Nodup := by
  show ([lit "base_armor", lit "attacks", lit "armours", lit "defense_terrain_bonus", lit "bonus_damage_resistance", lit "max_range", lit "blast_width", lit "reload_time", lit "projectile_unit_id", lit "accuracy_percent", lit "break_off_combat", lit "frame_delay", lit "graphic_displacement", lit "blast_attack_level", lit "min_range", lit "accuracy_dispersion", lit "attack_graphic", lit "displayed_melee_armour", lit "displayed_attack", lit "displayed_range", lit "displayed_reload_time", lit "blast_damage", lit "damage_reflection", lit "friendly_fire_damage", lit "interrupt_frame", lit "garrison_firepower", lit "attack_graphic_2"] : List PyStr).Nodup
  decide +kernel

theorem Projectile.names_nodup (x : Genie.Projectile) : ((Projectile.object x).attrs.map Prod.fst).Nodup := by
  show ([lit "projectile_type", lit "smart_mode", lit "hit_mode", lit "vanish_mode", lit "area_effect_specials", lit "projectile_arc"] : List PyStr).Nodup
  decide +kernel

theorem ResourceCost.names_nodup (x : Genie.ResourceCost) : ((ResourceCost.object x).attrs.map Prod.fst).Nodup := by
  show ([lit "type", lit "amount", lit "flag"] : List PyStr).Nodup
  decide +kernel

theorem TrainLocation.names_nodup (x : Genie.TrainLocation) : ((TrainLocation.object x).attrs.map Prod.fst).Nodup := by
  show ([lit "train_time", lit "unit_id", lit "button_id", lit "hot_key_id"] : List PyStr).Nodup
  decide +kernel

theorem Creatable.names_nodup (x : Genie.Creatable) : ((Creatable.object false x).attrs.map Prod.fst).Nodup := by
  show ([lit "resource_costs", lit "train_locations", lit "rear_attack_modifier", lit "flank_attack_modifier", lit "creatable_type", lit "hero_mode", lit "garrison_graphic", lit "spawning_graphic", lit "upgrade_graphic", lit "hero_glow_graphic", lit "idle_attack_graphic", lit "max_charge", lit "recharge_rate", lit "charge_event", lit "charge_type", lit "charge_target", lit "charge_projectile_unit", lit "attack_priority", lit "invulnerability_level", lit "button_icon_id", lit "button_short_tooltip_id", lit "button_extended_tooltip_id", lit "button_hotkey_action", lit "min_conversion_time_mod", lit "max_conversion_time_mod", lit "conversion_chance_mod", lit "total_projectiles", lit "max_total_projectiles", lit "projectile_spawning_area", lit "secondary_projectile_unit", lit "special_graphic", lit "special_ability", lit "displayed_pierce_armour"] : List PyStr).Nodup
  decide +kernel

theorem BuildingAnnex.names_nodup (x : Genie.BuildingAnnex) : ((BuildingAnnex.object x).attrs.map Prod.fst).Nodup := by
  show ([lit "unit_id", lit "misplacement_x", lit "misplacement_y"] : List PyStr).Nodup
  decide +kernel

theorem Building.names_nodup (x : Genie.Building) : ((Building.object x).attrs.map Prod.fst).Nodup := by
  show ([lit "construction_graphic_id", lit "snow_graphic_id", lit "destruction_graphic_id", lit "destruction_rubble_graphic_id", lit "researching_graphic", lit "research_completed_graphic", lit "adjacent_mode", lit "graphics_angle", lit "disappears_when_built", lit "stack_unit_id", lit "foundation_terrain_id", lit "old_overlap_id", lit "tech_id", lit "can_burn", lit "annexes", lit "head_unit", lit "transform_unit", lit "transform_sound", lit "construction_sound", lit "wwise_transform_sound_id", lit "wwise_construction_sound_id", lit "garrison_type", lit "garrison_heal_rate", lit "garrison_repair_rate", lit "pile_unit", lit "looting_table"] : List PyStr).Nodup
  decide +kernel

theorem Unit.names_nodup (x : Genie.Unit) : ((Unit.object false x).attrs.map Prod.fst).Nodup := by
  show ([lit "type", lit "id", lit "language_dll_name", lit "language_dll_creation", lit "class_", lit "standing_graphic", lit "dying_graphic", lit "undead_graphic", lit "undead_mode", lit "hit_points", lit "line_of_sight", lit "garrison_capacity", lit "collision_size_x", lit "collision_size_y", lit "collision_size_z", lit "train_sound", lit "damage_sound", lit "dead_unit_id", lit "blood_unit_id", lit "sort_number", lit "can_be_built_on", lit "icon_id", lit "hide_in_editor", lit "old_portrait_pict", lit "enabled", lit "disabled", lit "placement_side_terrain", lit "placement_terrain", lit "clearance_size", lit "hill_mode", lit "fog_visibility", lit "terrain_restriction", lit "fly_mode", lit "resource_capacity", lit "resource_decay", lit "blast_defense_level", lit "combat_level", lit "interaction_mode", lit "minimap_mode", lit "interface_kind", lit "multiple_attribute_mode", lit "minimap_color", lit "language_dll_help", lit "language_dll_hotkey_text", lit "hot_key", lit "recyclable", lit "enable_auto_gather", lit "create_doppelganger_on_death", lit "resource_gather_group", lit "occlusion_mode", lit "obstruction_type", lit "obstruction_class", lit "trait", lit "civilization", lit "nothing", lit "selection_effect", lit "editor_selection_colour", lit "outline_size_x", lit "outline_size_y", lit "outline_size_z", lit "scenario_triggers_1", lit "scenario_triggers_2", lit "resource_storages", lit "damage_graphics", lit "selection_sound", lit "dying_sound", lit "wwise_train_sound_id", lit "wwise_damage_sound_id", lit "wwise_selection_sound_id", lit "wwise_dying_sound_id", lit "old_attack_reaction", lit "convert_terrain", lit "name", lit "copy_id", lit "base_id", lit "speed", lit "dead_fish", lit "bird", lit "type_50", lit "projectile", lit "creatable", lit "building"] : List PyStr).Nodup
  decide +kernel

theorem UnitHeaders.names_nodup (x : Genie.UnitHeaders) : ((UnitHeaders.object x).attrs.map Prod.fst).Nodup := by
  show ([lit "exists", lit "task_list"] : List PyStr).Nodup
  decide +kernel

theorem Civ.names_nodup (x : Genie.Civ) : ((Civ.object false x).attrs.map Prod.fst).Nodup := by
  show ([lit "player_type", lit "name", lit "tech_tree_id", lit "team_bonus_id", lit "resources", lit "icon_set", lit "units"] : List PyStr).Nodup
  decide +kernel

theorem DatFile.names_nodup (x : Genie.DatFile) : ((DatFile.object false x).attrs.map Prod.fst).Nodup := by
  show ([lit "version", lit "float_ptr_terrain_tables", lit "terrain_pass_graphic_pointers", lit "terrain_restrictions", lit "player_colours", lit "sounds", lit "graphics", lit "terrain_block", lit "random_maps", lit "effects", lit "unit_headers", lit "civs", lit "techs", lit "time_slice", lit "unit_kill_rate", lit "unit_kill_total", lit "unit_hit_point_rate", lit "unit_hit_point_total", lit "razing_kill_rate", lit "razing_kill_total", lit "tech_tree"] : List PyStr).Nodup
  decide +kernel

theorem EffectCommand.intFields_shown (v : Version) : ∀ f ∈ Node.intFields v (.record .EffectCommand), IntShown _ f :=
  forall_cons (fun x _ => .of 0 (EffectCommand.names_nodup x) rfl rfl)
    (forall_cons (fun x _ => .of 1 (EffectCommand.names_nodup x) rfl rfl)
    (forall_cons (fun x _ => .of 2 (EffectCommand.names_nodup x) rfl rfl)
    (forall_cons (fun x _ => .of 3 (EffectCommand.names_nodup x) rfl rfl)
    (forall_nil))))

theorem SoundItem.intFields_shown (v : Version) : ∀ f ∈ Node.intFields v (.record .SoundItem), IntShown _ f :=
  forall_cons (fun x _ => .of 1 (SoundItem.names_nodup x) rfl rfl)
    (forall_cons (fun x _ => .of 2 (SoundItem.names_nodup x) rfl rfl)
    (forall_cons (fun x _ => .of 3 (SoundItem.names_nodup x) rfl rfl)
    (forall_cons (fun x _ => .of 4 (SoundItem.names_nodup x) rfl rfl)
    (forall_nil))))

theorem Sound.intFields_shown (v : Version) : ∀ f ∈ Node.intFields v (.record .Sound), IntShown _ f :=
  forall_cons (fun x _ => .of 0 (Sound.names_nodup x) rfl rfl)
    (forall_cons (fun x _ => .of 1 (Sound.names_nodup x) rfl rfl)
    (forall_cons (fun x _ => .of 2 (Sound.names_nodup x) rfl rfl)
    (forall_cons (fun x _ => .of 3 (Sound.names_nodup x) rfl rfl)
    (forall_nil))))

theorem PlayerColour.intFields_shown (v : Version) : ∀ f ∈ Node.intFields v (.record .PlayerColour), IntShown _ f :=
  forall_cons (fun x _ => .of 0 (PlayerColour.names_nodup x) rfl rfl)
    (forall_cons (fun x _ => .of 1 (PlayerColour.names_nodup x) rfl rfl)
    (forall_cons (fun x _ => .of 2 (PlayerColour.names_nodup x) rfl rfl)
    (forall_cons (fun x _ => .of 3 (PlayerColour.names_nodup x) rfl rfl)
    (forall_cons (fun x _ => .of 4 (PlayerColour.names_nodup x) rfl rfl)
    (forall_cons (fun x _ => .of 5 (PlayerColour.names_nodup x) rfl rfl)
    (forall_cons (fun x _ => .of 6 (PlayerColour.names_nodup x) rfl rfl)
    (forall_cons (fun x _ => .of 7 (PlayerColour.names_nodup x) rfl rfl)
    (forall_cons (fun x _ => .of 8 (PlayerColour.names_nodup x) rfl rfl)
    (forall_nil)))))))))

theorem GraphicDelta.intFields_shown (v : Version) : ∀ f ∈ Node.intFields v (.record .GraphicDelta), IntShown _ f :=
  forall_cons (fun x _ => .of 0 (GraphicDelta.names_nodup x) rfl rfl)
    (forall_cons (fun x _ => .of 1 (GraphicDelta.names_nodup x) rfl rfl)
    (forall_cons (fun x _ => .of 2 (GraphicDelta.names_nodup x) rfl rfl)
    (forall_cons (fun x _ => .of 3 (GraphicDelta.names_nodup x) rfl rfl)
    (forall_cons (fun x _ => .of 4 (GraphicDelta.names_nodup x) rfl rfl)
    (forall_cons (fun x _ => .of 5 (GraphicDelta.names_nodup x) rfl rfl)
    (forall_cons (fun x _ => .of 6 (GraphicDelta.names_nodup x) rfl rfl)
    (forall_nil)))))))

theorem GraphicAngleSound.intFields_shown (v : Version) : ∀ f ∈ Node.intFields v (.record .GraphicAngleSound), IntShown _ f :=
  forall_cons (fun x _ => .of 0 (GraphicAngleSound.names_nodup x) rfl rfl)
    (forall_cons (fun x _ => .of 1 (GraphicAngleSound.names_nodup x) rfl rfl)
    (forall_cons (fun x _ => .of 2 (GraphicAngleSound.names_nodup x) rfl rfl)
    (forall_cons (fun x _ => .of 3 (GraphicAngleSound.names_nodup x) rfl rfl)
    (forall_cons (fun x _ => .of 4 (GraphicAngleSound.names_nodup x) rfl rfl)
    (forall_cons (fun x _ => .of 5 (GraphicAngleSound.names_nodup x) rfl rfl)
    (forall_cons (fun x _ => .of 6 (GraphicAngleSound.names_nodup x) rfl rfl)
    (forall_cons (fun x _ => .of 7 (GraphicAngleSound.names_nodup x) rfl rfl)
    (forall_cons (fun x _ => .of 8 (GraphicAngleSound.names_nodup x) rfl rfl)
    (forall_nil)))))))))

theorem Graphic.intFields_shown (v : Version) : ∀ f ∈ Node.intFields v (.record .Graphic), IntShown _ f :=
  forall_cons (fun x _ => .of 3 (Graphic.names_nodup x) rfl rfl)
    (forall_cons (fun x _ => .of 4 (Graphic.names_nodup x) rfl rfl)
    (forall_cons (fun x _ => .of 5 (Graphic.names_nodup x) rfl rfl)
    (forall_cons (fun x _ => .of 6 (Graphic.names_nodup x) rfl rfl)
    (forall_cons (fun x _ => .of 7 (Graphic.names_nodup x) rfl rfl)
    (forall_cons (fun x _ => .of 8 (Graphic.names_nodup x) rfl rfl)
    (forall_cons (fun x _ => .of 10 (Graphic.names_nodup x) rfl rfl)
    (forall_cons (fun x _ => .of 11 (Graphic.names_nodup x) rfl rfl)
    (forall_cons (fun x _ => .of 13 (Graphic.names_nodup x) rfl rfl)
    (forall_cons (fun x _ => .of 18 (Graphic.names_nodup x) rfl rfl)
    (forall_cons (fun x _ => .of 19 (Graphic.names_nodup x) rfl rfl)
    (forall_cons (fun x _ => .of 20 (Graphic.names_nodup x) rfl rfl)
    (forall_cons (fun x _ => .of 21 (Graphic.names_nodup x) rfl rfl)
    (forall_nil)))))))))))))

theorem TerrainPassGraphic.intFields_shown (v : Version) : ∀ f ∈ Node.intFields v (.record .TerrainPassGraphic), IntShown _ f :=
  forall_cons (fun x _ => .of 0 (TerrainPassGraphic.names_nodup x) rfl rfl)
    (forall_cons (fun x _ => .of 1 (TerrainPassGraphic.names_nodup x) rfl rfl)
    (forall_cons (fun x _ => .of 2 (TerrainPassGraphic.names_nodup x) rfl rfl)
    (forall_cons (fun x _ => .of 3 (TerrainPassGraphic.names_nodup x) rfl rfl)
    (forall_nil))))

theorem FrameData.intFields_shown (v : Version) : ∀ f ∈ Node.intFields v (.record .FrameData), IntShown _ f :=
  forall_cons (fun x _ => .of 0 (FrameData.names_nodup x) rfl rfl)
    (forall_cons (fun x _ => .of 1 (FrameData.names_nodup x) rfl rfl)
    (forall_cons (fun x _ => .of 2 (FrameData.names_nodup x) rfl rfl)
    (forall_nil)))

theorem Terrain.intFields_shown (v : Version) : ∀ f ∈ Node.intFields v (.record .Terrain), IntShown _ f :=
  forall_cons (fun x _ => .of 0 (Terrain.names_nodup x) rfl rfl)
    (forall_cons (fun x _ => .of 1 (Terrain.names_nodup x) rfl rfl)
    (forall_cons (fun x _ => .of 2 (Terrain.names_nodup x) rfl rfl)
    (forall_cons (fun x _ => .of 3 (Terrain.names_nodup x) rfl rfl)
    (forall_cons (fun x _ => .of 4 (Terrain.names_nodup x) rfl rfl)
    (forall_cons (fun x _ => .of 7 (Terrain.names_nodup x) rfl rfl)
    (forall_cons (fun x _ => .of 8 (Terrain.names_nodup x) rfl rfl)
    (forall_cons (fun x _ => .of 9 (Terrain.names_nodup x) rfl rfl)
    (forall_cons (fun x _ => .of 10 (Terrain.names_nodup x) rfl rfl)
    (forall_cons (fun x _ => .of 11 (Terrain.names_nodup x) rfl rfl)
    (forall_cons (fun x _ => .of 12 (Terrain.names_nodup x) rfl rfl)
    (forall_cons (fun x _ => .of 13 (Terrain.names_nodup x) rfl rfl)
    (forall_cons (fun x _ => .of 17 (Terrain.names_nodup x) rfl rfl)
    (forall_cons (fun x _ => .of 18 (Terrain.names_nodup x) rfl rfl)
    (forall_cons (fun x _ => .of 19 (Terrain.names_nodup x) rfl rfl)
    (forall_cons (fun x _ => .of 20 (Terrain.names_nodup x) rfl rfl)
    (forall_cons (fun x _ => .of 21 (Terrain.names_nodup x) rfl rfl)
    (forall_cons (fun x _ => .of 24 (Terrain.names_nodup x) rfl rfl)
    (forall_cons (fun x _ => .of 25 (Terrain.names_nodup x) rfl rfl)
    (forall_cons (fun x _ => .of 27 (Terrain.names_nodup x) rfl rfl)
    (forall_cons (fun x _ => .of 28 (Terrain.names_nodup x) rfl rfl)
    (forall_cons (fun x _ => .of 30 (Terrain.names_nodup x) rfl rfl)
    (forall_cons (fun x _ => .of 36 (Terrain.names_nodup x) rfl rfl)
    (forall_cons (fun x _ => .of 37 (Terrain.names_nodup x) rfl rfl)
    (forall_nil))))))))))))))))))))))))

theorem TileSize.intFields_shown (v : Version) : ∀ f ∈ Node.intFields v (.record .TileSize), IntShown _ f :=
  forall_cons (fun x _ => .of 0 (TileSize.names_nodup x) rfl rfl)
    (forall_cons (fun x _ => .of 1 (TileSize.names_nodup x) rfl rfl)
    (forall_cons (fun x _ => .of 2 (TileSize.names_nodup x) rfl rfl)
    (forall_nil)))

theorem TerrainBlock.intFields_shown (v : Version) : ∀ f ∈ Node.intFields v (.record .TerrainBlock), IntShown _ f :=
  forall_cons (fun x _ => .of 0 (TerrainBlock.names_nodup x) rfl rfl)
    (forall_cons (fun x _ => .of 1 (TerrainBlock.names_nodup x) rfl rfl)
    (forall_cons (fun x _ => .of 2 (TerrainBlock.names_nodup x) rfl rfl)
    (forall_cons (fun x _ => .of 3 (TerrainBlock.names_nodup x) rfl rfl)
    (forall_cons (fun x _ => .of 4 (TerrainBlock.names_nodup x) rfl rfl)
    (forall_cons (fun x _ => .of 5 (TerrainBlock.names_nodup x) rfl rfl)
    (forall_cons (fun x _ => .of 7 (TerrainBlock.names_nodup x) rfl rfl)
    (forall_cons (fun x _ => .of 15 (TerrainBlock.names_nodup x) rfl rfl)
    (forall_cons (fun x _ => .of 16 (TerrainBlock.names_nodup x) rfl rfl)
    (forall_cons (fun x _ => .of 17 (TerrainBlock.names_nodup x) rfl rfl)
    (forall_cons (fun x _ => .of 18 (TerrainBlock.names_nodup x) rfl rfl)
    (forall_cons (fun x _ => .of 19 (TerrainBlock.names_nodup x) rfl rfl)
    (forall_cons (fun x _ => .of 20 (TerrainBlock.names_nodup x) rfl rfl)
    (forall_cons (fun x _ => .of 21 (TerrainBlock.names_nodup x) rfl rfl)
    (forall_cons (fun x _ => .of 22 (TerrainBlock.names_nodup x) rfl rfl)
    (forall_cons (fun x _ => .of 23 (TerrainBlock.names_nodup x) rfl rfl)
    (forall_cons (fun x _ => .of 24 (TerrainBlock.names_nodup x) rfl rfl)
    (forall_cons (fun x _ => .of 25 (TerrainBlock.names_nodup x) rfl rfl)
    (forall_cons (fun x _ => .of 26 (TerrainBlock.names_nodup x) rfl rfl)
    (forall_cons (fun x _ => .of 27 (TerrainBlock.names_nodup x) rfl rfl)
    (forall_cons (fun x _ => .of 28 (TerrainBlock.names_nodup x) rfl rfl)
    (forall_cons (fun x _ => .of 29 (TerrainBlock.names_nodup x) rfl rfl)
    (forall_cons (fun x _ => .of 30 (TerrainBlock.names_nodup x) rfl rfl)
    (forall_cons (fun x _ => .of 31 (TerrainBlock.names_nodup x) rfl rfl)
    (forall_cons (fun x _ => .of 32 (TerrainBlock.names_nodup x) rfl rfl)
    (forall_cons (fun x _ => .of 33 (TerrainBlock.names_nodup x) rfl rfl)
    (forall_nil))))))))))))))))))))))))))

theorem MapUnit.intFields_shown (v : Version) : ∀ f ∈ Node.intFields v (.record .MapUnit), IntShown _ f :=
  forall_cons (fun x _ => .of 0 (MapUnit.names_nodup x) rfl rfl)
    (forall_cons (fun x _ => .of 1 (MapUnit.names_nodup x) rfl rfl)
    (forall_cons (fun x _ => .of 2 (MapUnit.names_nodup x) rfl rfl)
    (forall_cons (fun x _ => .of 3 (MapUnit.names_nodup x) rfl rfl)
    (forall_cons (fun x _ => .of 4 (MapUnit.names_nodup x) rfl rfl)
    (forall_cons (fun x _ => .of 5 (MapUnit.names_nodup x) rfl rfl)
    (forall_cons (fun x _ => .of 6 (MapUnit.names_nodup x) rfl rfl)
    (forall_cons (fun x _ => .of 7 (MapUnit.names_nodup x) rfl rfl)
    (forall_cons (fun x _ => .of 8 (MapUnit.names_nodup x) rfl rfl)
    (forall_cons (fun x _ => .of 9 (MapUnit.names_nodup x) rfl rfl)
    (forall_cons (fun x _ => .of 10 (MapUnit.names_nodup x) rfl rfl)
    (forall_cons (fun x _ => .of 11 (MapUnit.names_nodup x) rfl rfl)
    (forall_cons (fun x _ => .of 12 (MapUnit.names_nodup x) rfl rfl)
    (forall_nil)))))))))))))

theorem MapTerrain.intFields_shown (v : Version) : ∀ f ∈ Node.intFields v (.record .MapTerrain), IntShown _ f :=
  forall_cons (fun x _ => .of 0 (MapTerrain.names_nodup x) rfl rfl)
    (forall_cons (fun x _ => .of 1 (MapTerrain.names_nodup x) rfl rfl)
    (forall_cons (fun x _ => .of 2 (MapTerrain.names_nodup x) rfl rfl)
    (forall_cons (fun x _ => .of 3 (MapTerrain.names_nodup x) rfl rfl)
    (forall_cons (fun x _ => .of 4 (MapTerrain.names_nodup x) rfl rfl)
    (forall_cons (fun x _ => .of 5 (MapTerrain.names_nodup x) rfl rfl)
    (forall_nil))))))

theorem MapLand.intFields_shown (v : Version) : ∀ f ∈ Node.intFields v (.record .MapLand), IntShown _ f :=
  forall_cons (fun x _ => .of 0 (MapLand.names_nodup x) rfl rfl)
    (forall_cons (fun x _ => .of 1 (MapLand.names_nodup x) rfl rfl)
    (forall_cons (fun x _ => .of 2 (MapLand.names_nodup x) rfl rfl)
    (forall_cons (fun x _ => .of 3 (MapLand.names_nodup x) rfl rfl)
    (forall_cons (fun x _ => .of 4 (MapLand.names_nodup x) rfl rfl)
    (forall_cons (fun x _ => .of 5 (MapLand.names_nodup x) rfl rfl)
    (forall_cons (fun x _ => .of 6 (MapLand.names_nodup x) rfl rfl)
    (forall_cons (fun x _ => .of 7 (MapLand.names_nodup x) rfl rfl)
    (forall_cons (fun x _ => .of 8 (MapLand.names_nodup x) rfl rfl)
    (forall_cons (fun x _ => .of 9 (MapLand.names_nodup x) rfl rfl)
    (forall_cons (fun x _ => .of 10 (MapLand.names_nodup x) rfl rfl)
    (forall_cons (fun x _ => .of 11 (MapLand.names_nodup x) rfl rfl)
    (forall_cons (fun x _ => .of 12 (MapLand.names_nodup x) rfl rfl)
    (forall_cons (fun x _ => .of 13 (MapLand.names_nodup x) rfl rfl)
    (forall_cons (fun x _ => .of 14 (MapLand.names_nodup x) rfl rfl)
    (forall_nil)))))))))))))))

theorem MapElevation.intFields_shown (v : Version) : ∀ f ∈ Node.intFields v (.record .MapElevation), IntShown _ f :=
  forall_cons (fun x _ => .of 0 (MapElevation.names_nodup x) rfl rfl)
    (forall_cons (fun x _ => .of 1 (MapElevation.names_nodup x) rfl rfl)
    (forall_cons (fun x _ => .of 2 (MapElevation.names_nodup x) rfl rfl)
    (forall_cons (fun x _ => .of 3 (MapElevation.names_nodup x) rfl rfl)
    (forall_cons (fun x _ => .of 4 (MapElevation.names_nodup x) rfl rfl)
    (forall_cons (fun x _ => .of 5 (MapElevation.names_nodup x) rfl rfl)
    (forall_nil))))))

theorem MapInfo.intFields_shown (v : Version) : ∀ f ∈ Node.intFields v (.record .MapInfo), IntShown _ f :=
  forall_cons (fun x _ => .of 0 (MapInfo.names_nodup x) rfl rfl)
    (forall_cons (fun x _ => .of 1 (MapInfo.names_nodup x) rfl rfl)
    (forall_cons (fun x _ => .of 2 (MapInfo.names_nodup x) rfl rfl)
    (forall_cons (fun x _ => .of 3 (MapInfo.names_nodup x) rfl rfl)
    (forall_cons (fun x _ => .of 4 (MapInfo.names_nodup x) rfl rfl)
    (forall_cons (fun x _ => .of 5 (MapInfo.names_nodup x) rfl rfl)
    (forall_cons (fun x _ => .of 6 (MapInfo.names_nodup x) rfl rfl)
    (forall_cons (fun x _ => .of 7 (MapInfo.names_nodup x) rfl rfl)
    (forall_cons (fun x _ => .of 8 (MapInfo.names_nodup x) rfl rfl)
    (forall_cons (fun x _ => .of 9 (MapInfo.names_nodup x) rfl rfl)
    (forall_cons (fun x _ => .of 11 (MapInfo.names_nodup x) rfl rfl)
    (forall_cons (fun x _ => .of 14 (MapInfo.names_nodup x) rfl rfl)
    (forall_cons (fun x _ => .of 17 (MapInfo.names_nodup x) rfl rfl)
    (forall_cons (fun x _ => .of 20 (MapInfo.names_nodup x) rfl rfl)
    (forall_nil))))))))))))))

theorem RandomMaps.intFields_shown (v : Version) : ∀ f ∈ Node.intFields v (.record .RandomMaps), IntShown _ f :=
  forall_cons (fun x _ => .of 0 (RandomMaps.names_nodup x) rfl rfl)
    (forall_nil)

theorem ResearchResourceCost.intFields_shown (v : Version) : ∀ f ∈ Node.intFields v (.record .ResearchResourceCost), IntShown _ f :=
  forall_cons (fun x _ => .of 0 (ResearchResourceCost.names_nodup x) rfl rfl)
    (forall_cons (fun x _ => .of 1 (ResearchResourceCost.names_nodup x) rfl rfl)
    (forall_cons (fun x _ => .of 2 (ResearchResourceCost.names_nodup x) rfl rfl)
    (forall_nil)))

theorem ResearchLocation.intFields_shown (v : Version) : ∀ f ∈ Node.intFields v (.record .ResearchLocation), IntShown _ f :=
  forall_cons (fun x _ => .of 0 (ResearchLocation.names_nodup x) rfl rfl)
    (forall_cons (fun x _ => .of 1 (ResearchLocation.names_nodup x) rfl rfl)
    (forall_cons (fun x _ => .of 2 (ResearchLocation.names_nodup x) rfl rfl)
    (forall_cons (fun x _ => .of 3 (ResearchLocation.names_nodup x) rfl rfl)
    (forall_nil))))

theorem Tech.intFields_shown (v : Version) : ∀ f ∈ Node.intFields v (.record .Tech), IntShown _ f :=
  forall_cons (fun x _ => .of 2 (Tech.names_nodup x) rfl rfl)
    (forall_cons (fun x _ => .of 3 (Tech.names_nodup x) rfl rfl)
    (forall_cons (fun x _ => .of 4 (Tech.names_nodup x) rfl rfl)
    (forall_cons (fun x _ => .of 5 (Tech.names_nodup x) rfl rfl)
    (forall_cons (fun x _ => .of 6 (Tech.names_nodup x) rfl rfl)
    (forall_cons (fun x _ => .of 7 (Tech.names_nodup x) rfl rfl)
    (forall_cons (fun x _ => .of 8 (Tech.names_nodup x) rfl rfl)
    (forall_cons (fun x _ => .of 9 (Tech.names_nodup x) rfl rfl)
    (forall_cons (fun x _ => .of 10 (Tech.names_nodup x) rfl rfl)
    (forall_cons (fun x _ => .of 11 (Tech.names_nodup x) rfl rfl)
    (forall_cons (fun x _ => .of 13 (Tech.names_nodup x) rfl rfl)
    (forall_nil)))))))))))

theorem Common.intFields_shown (v : Version) : ∀ f ∈ Node.intFields v (.record .Common), IntShown _ f :=
  forall_cons (fun x _ => .of 0 (Common.names_nodup x) rfl rfl)
    (forall_nil)

theorem TechTreeAge.intFields_shown (v : Version) : ∀ f ∈ Node.intFields v (.record .TechTreeAge), IntShown _ f :=
  forall_cons (fun x _ => .of 0 (TechTreeAge.names_nodup x) rfl rfl)
    (forall_cons (fun x _ => .of 1 (TechTreeAge.names_nodup x) rfl rfl)
    (forall_cons (fun x _ => .of 6 (TechTreeAge.names_nodup x) rfl rfl)
    (forall_cons (fun x _ => .of 9 (TechTreeAge.names_nodup x) rfl rfl)
    (forall_cons (fun x _ => .of 10 (TechTreeAge.names_nodup x) rfl rfl)
    (forall_nil)))))

theorem BuildingConnection.intFields_shown (v : Version) : ∀ f ∈ Node.intFields v (.record .BuildingConnection), IntShown _ f :=
  forall_cons (fun x _ => .of 0 (BuildingConnection.names_nodup x) rfl rfl)
    (forall_cons (fun x _ => .of 1 (BuildingConnection.names_nodup x) rfl rfl)
    (forall_cons (fun x _ => .of 6 (BuildingConnection.names_nodup x) rfl rfl)
    (forall_cons (fun x _ => .of 9 (BuildingConnection.names_nodup x) rfl rfl)
    (forall_cons (fun x _ => .of 10 (BuildingConnection.names_nodup x) rfl rfl)
    (forall_nil)))))

theorem UnitConnection.intFields_shown (v : Version) : ∀ f ∈ Node.intFields v (.record .UnitConnection), IntShown _ f :=
  forall_cons (fun x _ => .of 0 (UnitConnection.names_nodup x) rfl rfl)
    (forall_cons (fun x _ => .of 1 (UnitConnection.names_nodup x) rfl rfl)
    (forall_cons (fun x _ => .of 2 (UnitConnection.names_nodup x) rfl rfl)
    (forall_cons (fun x _ => .of 4 (UnitConnection.names_nodup x) rfl rfl)
    (forall_cons (fun x _ => .of 6 (UnitConnection.names_nodup x) rfl rfl)
    (forall_cons (fun x _ => .of 7 (UnitConnection.names_nodup x) rfl rfl)
    (forall_cons (fun x _ => .of 8 (UnitConnection.names_nodup x) rfl rfl)
    (forall_cons (fun x _ => .of 9 (UnitConnection.names_nodup x) rfl rfl)
    (forall_nil))))))))

theorem ResearchConnection.intFields_shown (v : Version) : ∀ f ∈ Node.intFields v (.record .ResearchConnection), IntShown _ f :=
  forall_cons (fun x _ => .of 0 (ResearchConnection.names_nodup x) rfl rfl)
    (forall_cons (fun x _ => .of 1 (ResearchConnection.names_nodup x) rfl rfl)
    (forall_cons (fun x _ => .of 2 (ResearchConnection.names_nodup x) rfl rfl)
    (forall_cons (fun x _ => .of 7 (ResearchConnection.names_nodup x) rfl rfl)
    (forall_cons (fun x _ => .of 8 (ResearchConnection.names_nodup x) rfl rfl)
    (forall_cons (fun x _ => .of 9 (ResearchConnection.names_nodup x) rfl rfl)
    (forall_nil))))))

theorem TechTree.intFields_shown (v : Version) : ∀ f ∈ Node.intFields v (.record .TechTree), IntShown _ f :=
  forall_cons (fun x _ => .of 0 (TechTree.names_nodup x) rfl rfl)
    (forall_nil)

theorem ResourceStorage.intFields_shown (v : Version) : ∀ f ∈ Node.intFields v (.record .ResourceStorage), IntShown _ f :=
  forall_cons (fun x _ => .of 0 (ResourceStorage.names_nodup x) rfl rfl)
    (forall_cons (fun x _ => .of 2 (ResourceStorage.names_nodup x) rfl rfl)
    (forall_nil))

theorem DamageGraphic.intFields_shown (v : Version) : ∀ f ∈ Node.intFields v (.record .DamageGraphic), IntShown _ f :=
  forall_cons (fun x _ => .of 0 (DamageGraphic.names_nodup x) rfl rfl)
    (forall_cons (fun x _ => .of 1 (DamageGraphic.names_nodup x) rfl rfl)
    (forall_cons (fun x _ => .of 2 (DamageGraphic.names_nodup x) rfl rfl)
    (forall_nil)))

theorem DeadFish.intFields_shown (v : Version) : ∀ f ∈ Node.intFields v (.record .DeadFish), IntShown _ f :=
  forall_cons (fun x _ => .of 0 (DeadFish.names_nodup x) rfl rfl)
    (forall_cons (fun x _ => .of 1 (DeadFish.names_nodup x) rfl rfl)
    (forall_cons (fun x _ => .of 3 (DeadFish.names_nodup x) rfl rfl)
    (forall_cons (fun x _ => .of 4 (DeadFish.names_nodup x) rfl rfl)
    (forall_cons (fun x _ => .of 5 (DeadFish.names_nodup x) rfl rfl)
    (forall_cons (fun x _ => .of 7 (DeadFish.names_nodup x) rfl rfl)
    (forall_nil))))))

theorem Task.intFields_shown (v : Version) : ∀ f ∈ Node.intFields v (.record .Task), IntShown _ f :=
  forall_append (forall_cons (fun x _ => .of 0 (Task.names_nodup x) rfl rfl)
    (forall_cons (fun x _ => .of 1 (Task.names_nodup x) rfl rfl)
    (forall_cons (fun x _ => .of 2 (Task.names_nodup x) rfl rfl)
    (forall_cons (fun x _ => .of 3 (Task.names_nodup x) rfl rfl)
    (forall_cons (fun x _ => .of 4 (Task.names_nodup x) rfl rfl)
    (forall_cons (fun x _ => .of 5 (Task.names_nodup x) rfl rfl)
    (forall_cons (fun x _ => .of 6 (Task.names_nodup x) rfl rfl)
    (forall_cons (fun x _ => .of 7 (Task.names_nodup x) rfl rfl)
    (forall_cons (fun x _ => .of 8 (Task.names_nodup x) rfl rfl)
    (forall_cons (fun x _ => .of 9 (Task.names_nodup x) rfl rfl)
    (forall_cons (fun x _ => .of 10 (Task.names_nodup x) rfl rfl)
    (forall_cons (fun x _ => .of 14 (Task.names_nodup x) rfl rfl)
    (forall_cons (fun x _ => .of 16 (Task.names_nodup x) rfl rfl)
    (forall_cons (fun x _ => .of 17 (Task.names_nodup x) rfl rfl)
    (forall_cons (fun x _ => .of 18 (Task.names_nodup x) rfl rfl)
    (forall_cons (fun x _ => .of 19 (Task.names_nodup x) rfl rfl)
    (forall_cons (fun x _ => .of 20 (Task.names_nodup x) rfl rfl)
    (forall_cons (fun x _ => .of 21 (Task.names_nodup x) rfl rfl)
    (forall_cons (fun x _ => .of 22 (Task.names_nodup x) rfl rfl)
    (forall_cons (fun x _ => .of 23 (Task.names_nodup x) rfl rfl)
    (forall_cons (fun x _ => .of 24 (Task.names_nodup x) rfl rfl)
    (forall_cons (fun x _ => .of 25 (Task.names_nodup x) rfl rfl)
    (forall_cons (fun x _ => .of 26 (Task.names_nodup x) rfl rfl)
    (forall_cons (fun x _ => .of 27 (Task.names_nodup x) rfl rfl)
    (forall_cons (fun x _ => .of 28 (Task.names_nodup x) rfl rfl)
    (forall_cons (fun x _ => .of 29 (Task.names_nodup x) rfl rfl)
    (forall_cons (fun x _ => .of 30 (Task.names_nodup x) rfl rfl)
    (forall_nil))))))))))))))))))))))))))))
    (forall_ite fun _ => forall_cons (fun x _ => .of 31 (Task.names_nodup x) rfl rfl)
    (forall_nil))

theorem Bird.intFields_shown (v : Version) : ∀ f ∈ Node.intFields v (.record .Bird), IntShown _ f :=
  forall_cons (fun x _ => .of 0 (Bird.names_nodup x) rfl rfl)
    (forall_cons (fun x _ => .of 4 (Bird.names_nodup x) rfl rfl)
    (forall_cons (fun x _ => .of 5 (Bird.names_nodup x) rfl rfl)
    (forall_cons (fun x _ => .of 6 (Bird.names_nodup x) rfl rfl)
    (forall_cons (fun x _ => .of 7 (Bird.names_nodup x) rfl rfl)
    (forall_cons (fun x _ => .of 8 (Bird.names_nodup x) rfl rfl)
    (forall_cons (fun x _ => .of 9 (Bird.names_nodup x) rfl rfl)
    (forall_nil)))))))

theorem AttackOrArmor.intFields_shown (v : Version) : ∀ f ∈ Node.intFields v (.record .AttackOrArmor), IntShown _ f :=
  forall_cons (fun x _ => .of 0 (AttackOrArmor.names_nodup x) rfl rfl)
    (forall_cons (fun x _ => .of 1 (AttackOrArmor.names_nodup x) rfl rfl)
    (forall_nil))

theorem Type50.intFields_shown (v : Version) : ∀ f ∈ Node.intFields v (.record .Type50), IntShown _ f :=
  forall_append (forall_cons (fun x _ => .of 0 (Type50.names_nodup x) rfl rfl)
    (forall_cons (fun x _ => .of 3 (Type50.names_nodup x) rfl rfl)
    (forall_cons (fun x _ => .of 8 (Type50.names_nodup x) rfl rfl)
    (forall_cons (fun x _ => .of 9 (Type50.names_nodup x) rfl rfl)
    (forall_cons (fun x _ => .of 10 (Type50.names_nodup x) rfl rfl)
    (forall_cons (fun x _ => .of 11 (Type50.names_nodup x) rfl rfl)
    (forall_cons (fun x _ => .of 13 (Type50.names_nodup x) rfl rfl)
    (forall_cons (fun x _ => .of 16 (Type50.names_nodup x) rfl rfl)
    (forall_cons (fun x _ => .of 17 (Type50.names_nodup x) rfl rfl)
    (forall_cons (fun x _ => .of 18 (Type50.names_nodup x) rfl rfl)
    (forall_nil)))))))))))
    (forall_ite fun _ => forall_cons (fun x _ => .of 24 (Type50.names_nodup x) rfl rfl)
    (forall_cons (fun x _ => .of 26 (Type50.names_nodup x) rfl rfl)
    (forall_nil)))

theorem Projectile.intFields_shown (v : Version) : ∀ f ∈ Node.intFields v (.record .Projectile), IntShown _ f :=
  forall_cons (fun x _ => .of 0 (Projectile.names_nodup x) rfl rfl)
    (forall_cons (fun x _ => .of 1 (Projectile.names_nodup x) rfl rfl)
    (forall_cons (fun x _ => .of 2 (Projectile.names_nodup x) rfl rfl)
    (forall_cons (fun x _ => .of 3 (Projectile.names_nodup x) rfl rfl)
    (forall_cons (fun x _ => .of 4 (Projectile.names_nodup x) rfl rfl)
    (forall_nil)))))

theorem ResourceCost.intFields_shown (v : Version) : ∀ f ∈ Node.intFields v (.record .ResourceCost), IntShown _ f :=
  forall_cons (fun x _ => .of 0 (ResourceCost.names_nodup x) rfl rfl)
    (forall_cons (fun x _ => .of 1 (ResourceCost.names_nodup x) rfl rfl)
    (forall_cons (fun x _ => .of 2 (ResourceCost.names_nodup x) rfl rfl)
    (forall_nil)))

theorem TrainLocation.intFields_shown (v : Version) : ∀ f ∈ Node.intFields v (.record .TrainLocation), IntShown _ f :=
  forall_append (forall_cons (fun x _ => .of 0 (TrainLocation.names_nodup x) rfl rfl)
    (forall_cons (fun x _ => .of 1 (TrainLocation.names_nodup x) rfl rfl)
    (forall_cons (fun x _ => .of 2 (TrainLocation.names_nodup x) rfl rfl)
    (forall_nil))))
    (forall_ite fun _ => forall_cons (fun x _ => .of 3 (TrainLocation.names_nodup x) rfl rfl)
    (forall_nil))

theorem Creatable.intFields_shown (v : Version) : ∀ f ∈ Node.intFields v (.record .Creatable), IntShown _ f :=
  forall_append (forall_cons (fun x _ => .of 4 (Creatable.names_nodup x) rfl rfl)
    (forall_cons (fun x _ => .of 5 (Creatable.names_nodup x) rfl rfl)
    (forall_cons (fun x _ => .of 6 (Creatable.names_nodup x) rfl rfl)
    (forall_cons (fun x _ => .of 7 (Creatable.names_nodup x) rfl rfl)
    (forall_cons (fun x _ => .of 8 (Creatable.names_nodup x) rfl rfl)
    (forall_cons (fun x _ => .of 9 (Creatable.names_nodup x) rfl rfl)
    (forall_cons (fun x _ => .of 13 (Creatable.names_nodup x) rfl rfl)
    (forall_cons (fun x _ => .of 14 (Creatable.names_nodup x) rfl rfl)
    (forall_cons (fun x _ => .of 27 (Creatable.names_nodup x) rfl rfl)
    (forall_cons (fun x _ => .of 29 (Creatable.names_nodup x) rfl rfl)
    (forall_cons (fun x _ => .of 30 (Creatable.names_nodup x) rfl rfl)
    (forall_cons (fun x _ => .of 31 (Creatable.names_nodup x) rfl rfl)
    (forall_cons (fun x _ => .of 32 (Creatable.names_nodup x) rfl rfl)
    (forall_nil))))))))))))))
    (forall_ite fun _ => forall_cons (fun x _ => .of 10 (Creatable.names_nodup x) rfl rfl)
    (forall_cons (fun x _ => .of 15 (Creatable.names_nodup x) rfl rfl)
    (forall_cons (fun x _ => .of 16 (Creatable.names_nodup x) rfl rfl)
    (forall_cons (fun x _ => .of 17 (Creatable.names_nodup x) rfl rfl)
    (forall_cons (fun x _ => .of 19 (Creatable.names_nodup x) rfl rfl)
    (forall_cons (fun x _ => .of 20 (Creatable.names_nodup x) rfl rfl)
    (forall_cons (fun x _ => .of 21 (Creatable.names_nodup x) rfl rfl)
    (forall_cons (fun x _ => .of 22 (Creatable.names_nodup x) rfl rfl)
    (forall_nil)))))))))

theorem BuildingAnnex.intFields_shown (v : Version) : ∀ f ∈ Node.intFields v (.record .BuildingAnnex), IntShown _ f :=
  forall_cons (fun x _ => .of 0 (BuildingAnnex.names_nodup x) rfl rfl)
    (forall_nil)

theorem Building.intFields_shown (v : Version) : ∀ f ∈ Node.intFields v (.record .Building), IntShown _ f :=
  forall_cons (fun x _ => .of 0 (Building.names_nodup x) rfl rfl)
    (forall_cons (fun x _ => .of 1 (Building.names_nodup x) rfl rfl)
    (forall_cons (fun x _ => .of 2 (Building.names_nodup x) rfl rfl)
    (forall_cons (fun x _ => .of 3 (Building.names_nodup x) rfl rfl)
    (forall_cons (fun x _ => .of 4 (Building.names_nodup x) rfl rfl)
    (forall_cons (fun x _ => .of 5 (Building.names_nodup x) rfl rfl)
    (forall_cons (fun x _ => .of 6 (Building.names_nodup x) rfl rfl)
    (forall_cons (fun x _ => .of 7 (Building.names_nodup x) rfl rfl)
    (forall_cons (fun x _ => .of 8 (Building.names_nodup x) rfl rfl)
    (forall_cons (fun x _ => .of 9 (Building.names_nodup x) rfl rfl)
    (forall_cons (fun x _ => .of 10 (Building.names_nodup x) rfl rfl)
    (forall_cons (fun x _ => .of 11 (Building.names_nodup x) rfl rfl)
    (forall_cons (fun x _ => .of 12 (Building.names_nodup x) rfl rfl)
    (forall_cons (fun x _ => .of 13 (Building.names_nodup x) rfl rfl)
    (forall_cons (fun x _ => .of 15 (Building.names_nodup x) rfl rfl)
    (forall_cons (fun x _ => .of 16 (Building.names_nodup x) rfl rfl)
    (forall_cons (fun x _ => .of 17 (Building.names_nodup x) rfl rfl)
    (forall_cons (fun x _ => .of 18 (Building.names_nodup x) rfl rfl)
    (forall_cons (fun x _ => .of 19 (Building.names_nodup x) rfl rfl)
    (forall_cons (fun x _ => .of 20 (Building.names_nodup x) rfl rfl)
    (forall_cons (fun x _ => .of 21 (Building.names_nodup x) rfl rfl)
    (forall_cons (fun x _ => .of 24 (Building.names_nodup x) rfl rfl)
    (forall_nil))))))))))))))))))))))

theorem Unit.intFields_shown (v : Version) : ∀ f ∈ Node.intFields v (.record .Unit), IntShown _ f :=
  forall_cons (fun x _ => .of 1 (Unit.names_nodup x) rfl rfl)
    (forall_cons (fun x _ => .of 2 (Unit.names_nodup x) rfl rfl)
    (forall_cons (fun x _ => .of 3 (Unit.names_nodup x) rfl rfl)
    (forall_cons (fun x _ => .of 4 (Unit.names_nodup x) rfl rfl)
    (forall_cons (fun x _ => .of 6 (Unit.names_nodup x) rfl rfl)
    (forall_cons (fun x _ => .of 7 (Unit.names_nodup x) rfl rfl)
    (forall_cons (fun x _ => .of 8 (Unit.names_nodup x) rfl rfl)
    (forall_cons (fun x _ => .of 9 (Unit.names_nodup x) rfl rfl)
    (forall_cons (fun x _ => .of 11 (Unit.names_nodup x) rfl rfl)
    (forall_cons (fun x _ => .of 15 (Unit.names_nodup x) rfl rfl)
    (forall_cons (fun x _ => .of 16 (Unit.names_nodup x) rfl rfl)
    (forall_cons (fun x _ => .of 17 (Unit.names_nodup x) rfl rfl)
    (forall_cons (fun x _ => .of 18 (Unit.names_nodup x) rfl rfl)
    (forall_cons (fun x _ => .of 19 (Unit.names_nodup x) rfl rfl)
    (forall_cons (fun x _ => .of 20 (Unit.names_nodup x) rfl rfl)
    (forall_cons (fun x _ => .of 21 (Unit.names_nodup x) rfl rfl)
    (forall_cons (fun x _ => .of 22 (Unit.names_nodup x) rfl rfl)
    (forall_cons (fun x _ => .of 23 (Unit.names_nodup x) rfl rfl)
    (forall_cons (fun x _ => .of 24 (Unit.names_nodup x) rfl rfl)
    (forall_cons (fun x _ => .of 25 (Unit.names_nodup x) rfl rfl)
    (forall_cons (fun x _ => .of 29 (Unit.names_nodup x) rfl rfl)
    (forall_cons (fun x _ => .of 30 (Unit.names_nodup x) rfl rfl)
    (forall_cons (fun x _ => .of 31 (Unit.names_nodup x) rfl rfl)
    (forall_cons (fun x _ => .of 32 (Unit.names_nodup x) rfl rfl)
    (forall_cons (fun x _ => .of 33 (Unit.names_nodup x) rfl rfl)
    (forall_cons (fun x _ => .of 35 (Unit.names_nodup x) rfl rfl)
    (forall_cons (fun x _ => .of 36 (Unit.names_nodup x) rfl rfl)
    (forall_cons (fun x _ => .of 37 (Unit.names_nodup x) rfl rfl)
    (forall_cons (fun x _ => .of 38 (Unit.names_nodup x) rfl rfl)
    (forall_cons (fun x _ => .of 39 (Unit.names_nodup x) rfl rfl)
    (forall_cons (fun x _ => .of 41 (Unit.names_nodup x) rfl rfl)
    (forall_cons (fun x _ => .of 42 (Unit.names_nodup x) rfl rfl)
    (forall_cons (fun x _ => .of 43 (Unit.names_nodup x) rfl rfl)
    (forall_cons (fun x _ => .of 45 (Unit.names_nodup x) rfl rfl)
    (forall_cons (fun x _ => .of 46 (Unit.names_nodup x) rfl rfl)
    (forall_cons (fun x _ => .of 47 (Unit.names_nodup x) rfl rfl)
    (forall_cons (fun x _ => .of 48 (Unit.names_nodup x) rfl rfl)
    (forall_cons (fun x _ => .of 49 (Unit.names_nodup x) rfl rfl)
    (forall_cons (fun x _ => .of 50 (Unit.names_nodup x) rfl rfl)
    (forall_cons (fun x _ => .of 51 (Unit.names_nodup x) rfl rfl)
    (forall_cons (fun x _ => .of 52 (Unit.names_nodup x) rfl rfl)
    (forall_cons (fun x _ => .of 53 (Unit.names_nodup x) rfl rfl)
    (forall_cons (fun x _ => .of 54 (Unit.names_nodup x) rfl rfl)
    (forall_cons (fun x _ => .of 55 (Unit.names_nodup x) rfl rfl)
    (forall_cons (fun x _ => .of 56 (Unit.names_nodup x) rfl rfl)
    (forall_cons (fun x _ => .of 60 (Unit.names_nodup x) rfl rfl)
    (forall_cons (fun x _ => .of 61 (Unit.names_nodup x) rfl rfl)
    (forall_cons (fun x _ => .of 64 (Unit.names_nodup x) rfl rfl)
    (forall_cons (fun x _ => .of 65 (Unit.names_nodup x) rfl rfl)
    (forall_cons (fun x _ => .of 66 (Unit.names_nodup x) rfl rfl)
    (forall_cons (fun x _ => .of 67 (Unit.names_nodup x) rfl rfl)
    (forall_cons (fun x _ => .of 68 (Unit.names_nodup x) rfl rfl)
    (forall_cons (fun x _ => .of 69 (Unit.names_nodup x) rfl rfl)
    (forall_cons (fun x _ => .of 70 (Unit.names_nodup x) rfl rfl)
    (forall_cons (fun x _ => .of 71 (Unit.names_nodup x) rfl rfl)
    (forall_cons (fun x _ => .of 73 (Unit.names_nodup x) rfl rfl)
    (forall_cons (fun x _ => .of 74 (Unit.names_nodup x) rfl rfl)
    (forall_nil)))))))))))))))))))))))))))))))))))))))))))))))))))))))))

theorem Civ.intFields_shown (v : Version) : ∀ f ∈ Node.intFields v (.record .Civ), IntShown _ f :=
  forall_cons (fun x _ => .of 0 (Civ.names_nodup x) rfl rfl)
    (forall_cons (fun x _ => .of 2 (Civ.names_nodup x) rfl rfl)
    (forall_cons (fun x _ => .of 3 (Civ.names_nodup x) rfl rfl)
    (forall_cons (fun x _ => .of 5 (Civ.names_nodup x) rfl rfl)
    (forall_nil))))

theorem DatFile.intFields_shown (v : Version) : ∀ f ∈ Node.intFields v (.file), IntShown _ f :=
  forall_cons (fun x _ => .of 13 (DatFile.names_nodup x) rfl rfl)
    (forall_cons (fun x _ => .of 14 (DatFile.names_nodup x) rfl rfl)
    (forall_cons (fun x _ => .of 15 (DatFile.names_nodup x) rfl rfl)
    (forall_cons (fun x _ => .of 16 (DatFile.names_nodup x) rfl rfl)
    (forall_cons (fun x _ => .of 17 (DatFile.names_nodup x) rfl rfl)
    (forall_cons (fun x _ => .of 18 (DatFile.names_nodup x) rfl rfl)
    (forall_cons (fun x _ => .of 19 (DatFile.names_nodup x) rfl rfl)
    (forall_nil)))))))

theorem Node.intFields_shown (v : Version) (n : Node) : ∀ f ∈ n.intFields v, IntShown n f := by
  match n with
  | .record .EffectCommand => exact EffectCommand.intFields_shown v
  | .record .SoundItem => exact SoundItem.intFields_shown v
  | .record .Sound => exact Sound.intFields_shown v
  | .record .PlayerColour => exact PlayerColour.intFields_shown v
  | .record .GraphicDelta => exact GraphicDelta.intFields_shown v
  | .record .GraphicAngleSound => exact GraphicAngleSound.intFields_shown v
  | .record .Graphic => exact Graphic.intFields_shown v
  | .record .TerrainPassGraphic => exact TerrainPassGraphic.intFields_shown v
  | .record .FrameData => exact FrameData.intFields_shown v
  | .record .Terrain => exact Terrain.intFields_shown v
  | .record .TileSize => exact TileSize.intFields_shown v
  | .record .TerrainBlock => exact TerrainBlock.intFields_shown v
  | .record .MapUnit => exact MapUnit.intFields_shown v
  | .record .MapTerrain => exact MapTerrain.intFields_shown v
  | .record .MapLand => exact MapLand.intFields_shown v
  | .record .MapElevation => exact MapElevation.intFields_shown v
  | .record .MapInfo => exact MapInfo.intFields_shown v
  | .record .RandomMaps => exact RandomMaps.intFields_shown v
  | .record .ResearchResourceCost => exact ResearchResourceCost.intFields_shown v
  | .record .ResearchLocation => exact ResearchLocation.intFields_shown v
  | .record .Tech => exact Tech.intFields_shown v
  | .record .Common => exact Common.intFields_shown v
  | .record .TechTreeAge => exact TechTreeAge.intFields_shown v
  | .record .BuildingConnection => exact BuildingConnection.intFields_shown v
  | .record .UnitConnection => exact UnitConnection.intFields_shown v
  | .record .ResearchConnection => exact ResearchConnection.intFields_shown v
  | .record .TechTree => exact TechTree.intFields_shown v
  | .record .ResourceStorage => exact ResourceStorage.intFields_shown v
  | .record .DamageGraphic => exact DamageGraphic.intFields_shown v
  | .record .DeadFish => exact DeadFish.intFields_shown v
  | .record .Task => exact Task.intFields_shown v
  | .record .Bird => exact Bird.intFields_shown v
  | .record .AttackOrArmor => exact AttackOrArmor.intFields_shown v
  | .record .Type50 => exact Type50.intFields_shown v
  | .record .Projectile => exact Projectile.intFields_shown v
  | .record .ResourceCost => exact ResourceCost.intFields_shown v
  | .record .TrainLocation => exact TrainLocation.intFields_shown v
  | .record .Creatable => exact Creatable.intFields_shown v
  | .record .BuildingAnnex => exact BuildingAnnex.intFields_shown v
  | .record .Building => exact Building.intFields_shown v
  | .record .Unit => exact Unit.intFields_shown v
  | .record .Civ => exact Civ.intFields_shown v
  | .file => exact DatFile.intFields_shown v
  | .record .Effect => exact forall_nil
  | .record (.TerrainRestriction _) => exact forall_nil
  | .record .UnitHeaders => exact forall_nil

theorem EffectCommand.floatFields_shown (v : Version) : ∀ f ∈ Node.floatFields v (.record .EffectCommand), FloatShown _ f :=
  forall_cons (fun x _ => ⟨_, .of 4 (EffectCommand.names_nodup x) rfl rfl, fun y h => (by cases h; rfl)⟩)
    (forall_nil)

theorem Graphic.floatFields_shown (v : Version) : ∀ f ∈ Node.floatFields v (.record .Graphic), FloatShown _ f :=
  forall_cons (fun x _ => ⟨_, .of 15 (Graphic.names_nodup x) rfl rfl, fun y h => (by cases h; rfl)⟩)
    (forall_cons (fun x _ => ⟨_, .of 16 (Graphic.names_nodup x) rfl rfl, fun y h => (by cases h; rfl)⟩)
    (forall_cons (fun x _ => ⟨_, .of 17 (Graphic.names_nodup x) rfl rfl, fun y h => (by cases h; rfl)⟩)
    (forall_nil)))

theorem Terrain.floatFields_shown (v : Version) : ∀ f ∈ Node.floatFields v (.record .Terrain), FloatShown _ f :=
  forall_cons (fun x _ => ⟨_, .of 22 (Terrain.names_nodup x) rfl rfl, fun y h => (by cases h; rfl)⟩)
    (forall_cons (fun x _ => ⟨_, .of 23 (Terrain.names_nodup x) rfl rfl, fun y h => (by cases h; rfl)⟩)
    (forall_cons (fun x _ => ⟨_, .of 26 (Terrain.names_nodup x) rfl rfl, fun y h => (by cases h; rfl)⟩)
    (forall_nil)))

theorem TerrainBlock.floatFields_shown (v : Version) : ∀ f ∈ Node.floatFields v (.record .TerrainBlock), FloatShown _ f :=
  forall_cons (fun x _ => ⟨_, .of 9 (TerrainBlock.names_nodup x) rfl rfl, fun y h => (by cases h; rfl)⟩)
    (forall_cons (fun x _ => ⟨_, .of 10 (TerrainBlock.names_nodup x) rfl rfl, fun y h => (by cases h; rfl)⟩)
    (forall_cons (fun x _ => ⟨_, .of 11 (TerrainBlock.names_nodup x) rfl rfl, fun y h => (by cases h; rfl)⟩)
    (forall_cons (fun x _ => ⟨_, .of 12 (TerrainBlock.names_nodup x) rfl rfl, fun y h => (by cases h; rfl)⟩)
    (forall_cons (fun x _ => ⟨_, .of 13 (TerrainBlock.names_nodup x) rfl rfl, fun y h => (by cases h; rfl)⟩)
    (forall_cons (fun x _ => ⟨_, .of 14 (TerrainBlock.names_nodup x) rfl rfl, fun y h => (by cases h; rfl)⟩)
    (forall_nil))))))

theorem ResourceStorage.floatFields_shown (v : Version) : ∀ f ∈ Node.floatFields v (.record .ResourceStorage), FloatShown _ f :=
  forall_cons (fun x _ => ⟨_, .of 1 (ResourceStorage.names_nodup x) rfl rfl, fun y h => (by cases h; rfl)⟩)
    (forall_nil)

theorem DeadFish.floatFields_shown (v : Version) : ∀ f ∈ Node.floatFields v (.record .DeadFish), FloatShown _ f :=
  forall_cons (fun x _ => ⟨_, .of 2 (DeadFish.names_nodup x) rfl rfl, fun y h => (by cases h; rfl)⟩)
    (forall_cons (fun x _ => ⟨_, .of 6 (DeadFish.names_nodup x) rfl rfl, fun y h => (by cases h; rfl)⟩)
    (forall_cons (fun x _ => ⟨_, .of 8 (DeadFish.names_nodup x) rfl rfl, fun y h => (by cases h; rfl)⟩)
    (forall_cons (fun x _ => ⟨_, .of 9 (DeadFish.names_nodup x) rfl rfl, fun y h => (by cases h; rfl)⟩)
    (forall_cons (fun x _ => ⟨_, .of 10 (DeadFish.names_nodup x) rfl rfl, fun y h => (by cases h; rfl)⟩)
    (forall_cons (fun x _ => ⟨_, .of 11 (DeadFish.names_nodup x) rfl rfl, fun y h => (by cases h; rfl)⟩)
    (forall_cons (fun x _ => ⟨_, .of 12 (DeadFish.names_nodup x) rfl rfl, fun y h => (by cases h; rfl)⟩)
    (forall_cons (fun x _ => ⟨_, .of 13 (DeadFish.names_nodup x) rfl rfl, fun y h => (by cases h; rfl)⟩)
    (forall_nil))))))))

theorem Task.floatFields_shown (v : Version) : ∀ f ∈ Node.floatFields v (.record .Task), FloatShown _ f :=
  forall_cons (fun x _ => ⟨_, .of 11 (Task.names_nodup x) rfl rfl, fun y h => (by cases h; rfl)⟩)
    (forall_cons (fun x _ => ⟨_, .of 12 (Task.names_nodup x) rfl rfl, fun y h => (by cases h; rfl)⟩)
    (forall_cons (fun x _ => ⟨_, .of 13 (Task.names_nodup x) rfl rfl, fun y h => (by cases h; rfl)⟩)
    (forall_cons (fun x _ => ⟨_, .of 15 (Task.names_nodup x) rfl rfl, fun y h => (by cases h; rfl)⟩)
    (forall_nil))))

theorem Bird.floatFields_shown (v : Version) : ∀ f ∈ Node.floatFields v (.record .Bird), FloatShown _ f :=
  forall_cons (fun x _ => ⟨_, .of 1 (Bird.names_nodup x) rfl rfl, fun y h => (by cases h; rfl)⟩)
    (forall_cons (fun x _ => ⟨_, .of 2 (Bird.names_nodup x) rfl rfl, fun y h => (by cases h; rfl)⟩)
    (forall_nil))

theorem Type50.floatFields_shown (v : Version) : ∀ f ∈ Node.floatFields v (.record .Type50), FloatShown _ f :=
  forall_append (forall_cons (fun x _ => ⟨_, .of 4 (Type50.names_nodup x) rfl rfl, fun y h => (by cases h; rfl)⟩)
    (forall_cons (fun x _ => ⟨_, .of 5 (Type50.names_nodup x) rfl rfl, fun y h => (by cases h; rfl)⟩)
    (forall_cons (fun x _ => ⟨_, .of 6 (Type50.names_nodup x) rfl rfl, fun y h => (by cases h; rfl)⟩)
    (forall_cons (fun x _ => ⟨_, .of 7 (Type50.names_nodup x) rfl rfl, fun y h => (by cases h; rfl)⟩)
    (forall_cons (fun x _ => ⟨_, .of 14 (Type50.names_nodup x) rfl rfl, fun y h => (by cases h; rfl)⟩)
    (forall_cons (fun x _ => ⟨_, .of 15 (Type50.names_nodup x) rfl rfl, fun y h => (by cases h; rfl)⟩)
    (forall_cons (fun x _ => ⟨_, .of 19 (Type50.names_nodup x) rfl rfl, fun y h => (by cases h; rfl)⟩)
    (forall_cons (fun x _ => ⟨_, .of 20 (Type50.names_nodup x) rfl rfl, fun y h => (by cases h; rfl)⟩)
    (forall_cons (fun x _ => ⟨_, .of 21 (Type50.names_nodup x) rfl rfl, fun y h => (by cases h; rfl)⟩)
    (forall_nil))))))))))
    (forall_ite fun _ => forall_cons (fun x _ => ⟨_, .of 22 (Type50.names_nodup x) rfl rfl, fun y h => (by cases h; rfl)⟩)
    (forall_cons (fun x _ => ⟨_, .of 23 (Type50.names_nodup x) rfl rfl, fun y h => (by cases h; rfl)⟩)
    (forall_cons (fun x _ => ⟨_, .of 25 (Type50.names_nodup x) rfl rfl, fun y h => (by cases h; rfl)⟩)
    (forall_nil))))

theorem Projectile.floatFields_shown (v : Version) : ∀ f ∈ Node.floatFields v (.record .Projectile), FloatShown _ f :=
  forall_cons (fun x _ => ⟨_, .of 5 (Projectile.names_nodup x) rfl rfl, fun y h => (by cases h; rfl)⟩)
    (forall_nil)

theorem Creatable.floatFields_shown (v : Version) : ∀ f ∈ Node.floatFields v (.record .Creatable), FloatShown _ f :=
  forall_append (forall_cons (fun x _ => ⟨_, .of 2 (Creatable.names_nodup x) rfl rfl, fun y h => (by cases h; rfl)⟩)
    (forall_cons (fun x _ => ⟨_, .of 3 (Creatable.names_nodup x) rfl rfl, fun y h => (by cases h; rfl)⟩)
    (forall_cons (fun x _ => ⟨_, .of 11 (Creatable.names_nodup x) rfl rfl, fun y h => (by cases h; rfl)⟩)
    (forall_cons (fun x _ => ⟨_, .of 12 (Creatable.names_nodup x) rfl rfl, fun y h => (by cases h; rfl)⟩)
    (forall_cons (fun x _ => ⟨_, .of 23 (Creatable.names_nodup x) rfl rfl, fun y h => (by cases h; rfl)⟩)
    (forall_cons (fun x _ => ⟨_, .of 24 (Creatable.names_nodup x) rfl rfl, fun y h => (by cases h; rfl)⟩)
    (forall_cons (fun x _ => ⟨_, .of 25 (Creatable.names_nodup x) rfl rfl, fun y h => (by cases h; rfl)⟩)
    (forall_cons (fun x _ => ⟨_, .of 26 (Creatable.names_nodup x) rfl rfl, fun y h => (by cases h; rfl)⟩)
    (forall_nil)))))))))
    (forall_ite fun _ => forall_cons (fun x _ => ⟨_, .of 18 (Creatable.names_nodup x) rfl rfl, fun y h => (by cases h; rfl)⟩)
    (forall_nil))

theorem BuildingAnnex.floatFields_shown (v : Version) : ∀ f ∈ Node.floatFields v (.record .BuildingAnnex), FloatShown _ f :=
  forall_cons (fun x _ => ⟨_, .of 1 (BuildingAnnex.names_nodup x) rfl rfl, fun y h => (by cases h; rfl)⟩)
    (forall_cons (fun x _ => ⟨_, .of 2 (BuildingAnnex.names_nodup x) rfl rfl, fun y h => (by cases h; rfl)⟩)
    (forall_nil))

theorem Building.floatFields_shown (v : Version) : ∀ f ∈ Node.floatFields v (.record .Building), FloatShown _ f :=
  forall_cons (fun x _ => ⟨_, .of 22 (Building.names_nodup x) rfl rfl, fun y h => (by cases h; rfl)⟩)
    (forall_cons (fun x _ => ⟨_, .of 23 (Building.names_nodup x) rfl rfl, fun y h => (by cases h; rfl)⟩)
    (forall_nil))

theorem Unit.floatFields_shown (v : Version) : ∀ f ∈ Node.floatFields v (.record .Unit), FloatShown _ f :=
  forall_cons (fun x _ => ⟨_, .of 10 (Unit.names_nodup x) rfl rfl, fun y h => (by cases h; rfl)⟩)
    (forall_cons (fun x _ => ⟨_, .of 12 (Unit.names_nodup x) rfl rfl, fun y h => (by cases h; rfl)⟩)
    (forall_cons (fun x _ => ⟨_, .of 13 (Unit.names_nodup x) rfl rfl, fun y h => (by cases h; rfl)⟩)
    (forall_cons (fun x _ => ⟨_, .of 14 (Unit.names_nodup x) rfl rfl, fun y h => (by cases h; rfl)⟩)
    (forall_cons (fun x _ => ⟨_, .of 34 (Unit.names_nodup x) rfl rfl, fun y h => (by cases h; rfl)⟩)
    (forall_cons (fun x _ => ⟨_, .of 40 (Unit.names_nodup x) rfl rfl, fun y h => (by cases h; rfl)⟩)
    (forall_cons (fun x _ => ⟨_, .of 57 (Unit.names_nodup x) rfl rfl, fun y h => (by cases h; rfl)⟩)
    (forall_cons (fun x _ => ⟨_, .of 58 (Unit.names_nodup x) rfl rfl, fun y h => (by cases h; rfl)⟩)
    (forall_cons (fun x _ => ⟨_, .of 59 (Unit.names_nodup x) rfl rfl, fun y h => (by cases h; rfl)⟩)
    (forall_cons (fun x _ => ⟨_, .of 75 (Unit.names_nodup x) rfl rfl, fun y h => (by rw [show Unit.speed x = some y from h]; rfl)⟩)
    (forall_nil))))))))))

theorem Node.floatFields_shown (v : Version) (n : Node) : ∀ f ∈ n.floatFields v, FloatShown n f := by
  match n with
  | .record .EffectCommand => exact EffectCommand.floatFields_shown v
  | .record .Graphic => exact Graphic.floatFields_shown v
  | .record .Terrain => exact Terrain.floatFields_shown v
  | .record .TerrainBlock => exact TerrainBlock.floatFields_shown v
  | .record .ResourceStorage => exact ResourceStorage.floatFields_shown v
  | .record .DeadFish => exact DeadFish.floatFields_shown v
  | .record .Task => exact Task.floatFields_shown v
  | .record .Bird => exact Bird.floatFields_shown v
  | .record .Type50 => exact Type50.floatFields_shown v
  | .record .Projectile => exact Projectile.floatFields_shown v
  | .record .Creatable => exact Creatable.floatFields_shown v
  | .record .BuildingAnnex => exact BuildingAnnex.floatFields_shown v
  | .record .Building => exact Building.floatFields_shown v
  | .record .Unit => exact Unit.floatFields_shown v
  | .record .Effect => exact forall_nil
  | .record .SoundItem => exact forall_nil
  | .record .Sound => exact forall_nil
  | .record .PlayerColour => exact forall_nil
  | .record .GraphicDelta => exact forall_nil
  | .record .GraphicAngleSound => exact forall_nil
  | .record .TerrainPassGraphic => exact forall_nil
  | .record (.TerrainRestriction _) => exact forall_nil
  | .record .FrameData => exact forall_nil
  | .record .TileSize => exact forall_nil
  | .record .MapUnit => exact forall_nil
  | .record .MapTerrain => exact forall_nil
  | .record .MapLand => exact forall_nil
  | .record .MapElevation => exact forall_nil
  | .record .MapInfo => exact forall_nil
  | .record .RandomMaps => exact forall_nil
  | .record .ResearchResourceCost => exact forall_nil
  | .record .ResearchLocation => exact forall_nil
  | .record .Tech => exact forall_nil
  | .record .Common => exact forall_nil
  | .record .TechTreeAge => exact forall_nil
  | .record .BuildingConnection => exact forall_nil
  | .record .UnitConnection => exact forall_nil
  | .record .ResearchConnection => exact forall_nil
  | .record .TechTree => exact forall_nil
  | .record .DamageGraphic => exact forall_nil
  | .record .AttackOrArmor => exact forall_nil
  | .record .ResourceCost => exact forall_nil
  | .record .TrainLocation => exact forall_nil
  | .record .UnitHeaders => exact forall_nil
  | .record .Civ => exact forall_nil
  | .file => exact forall_nil

theorem Effect.textFields_shown (v : Version) : ∀ f ∈ Node.textFields v (.record .Effect), TextShown _ f :=
  forall_cons (fun x _ => .of 0 (Effect.names_nodup x) rfl rfl)
    (forall_nil)

theorem SoundItem.textFields_shown (v : Version) : ∀ f ∈ Node.textFields v (.record .SoundItem), TextShown _ f :=
  forall_cons (fun x _ => .of 0 (SoundItem.names_nodup x) rfl rfl)
    (forall_nil)

theorem Graphic.textFields_shown (v : Version) : ∀ f ∈ Node.textFields v (.record .Graphic), TextShown _ f :=
  forall_cons (fun x _ => .of 0 (Graphic.names_nodup x) rfl rfl)
    (forall_cons (fun x _ => .of 1 (Graphic.names_nodup x) rfl rfl)
    (forall_cons (fun x _ => .of 2 (Graphic.names_nodup x) rfl rfl)
    (forall_nil)))

theorem Terrain.textFields_shown (v : Version) : ∀ f ∈ Node.textFields v (.record .Terrain), TextShown _ f :=
  forall_cons (fun x _ => .of 5 (Terrain.names_nodup x) rfl rfl)
    (forall_cons (fun x _ => .of 6 (Terrain.names_nodup x) rfl rfl)
    (forall_cons (fun x _ => .of 14 (Terrain.names_nodup x) rfl rfl)
    (forall_nil)))

theorem Tech.textFields_shown (v : Version) : ∀ f ∈ Node.textFields v (.record .Tech), TextShown _ f :=
  forall_cons (fun x _ => .of 12 (Tech.names_nodup x) rfl rfl)
    (forall_nil)

theorem Unit.textFields_shown (v : Version) : ∀ f ∈ Node.textFields v (.record .Unit), TextShown _ f :=
  forall_cons (fun x _ => .of 72 (Unit.names_nodup x) rfl rfl)
    (forall_nil)

theorem Civ.textFields_shown (v : Version) : ∀ f ∈ Node.textFields v (.record .Civ), TextShown _ f :=
  forall_cons (fun x _ => .of 1 (Civ.names_nodup x) rfl rfl)
    (forall_nil)

theorem Node.textFields_shown (v : Version) (n : Node) : ∀ f ∈ n.textFields v, TextShown n f := by
  match n with
  | .record .Effect => exact Effect.textFields_shown v
  | .record .SoundItem => exact SoundItem.textFields_shown v
  | .record .Graphic => exact Graphic.textFields_shown v
  | .record .Terrain => exact Terrain.textFields_shown v
  | .record .Tech => exact Tech.textFields_shown v
  | .record .Unit => exact Unit.textFields_shown v
  | .record .Civ => exact Civ.textFields_shown v
  | .record .EffectCommand => exact forall_nil
  | .record .Sound => exact forall_nil
  | .record .PlayerColour => exact forall_nil
  | .record .GraphicDelta => exact forall_nil
  | .record .GraphicAngleSound => exact forall_nil
  | .record .TerrainPassGraphic => exact forall_nil
  | .record (.TerrainRestriction _) => exact forall_nil
  | .record .FrameData => exact forall_nil
  | .record .TileSize => exact forall_nil
  | .record .TerrainBlock => exact forall_nil
  | .record .MapUnit => exact forall_nil
  | .record .MapTerrain => exact forall_nil
  | .record .MapLand => exact forall_nil
  | .record .MapElevation => exact forall_nil
  | .record .MapInfo => exact forall_nil
  | .record .RandomMaps => exact forall_nil
  | .record .ResearchResourceCost => exact forall_nil
  | .record .ResearchLocation => exact forall_nil
  | .record .Common => exact forall_nil
  | .record .TechTreeAge => exact forall_nil
  | .record .BuildingConnection => exact forall_nil
  | .record .UnitConnection => exact forall_nil
  | .record .ResearchConnection => exact forall_nil
  | .record .TechTree => exact forall_nil
  | .record .Task => exact forall_nil
  | .record .ResourceStorage => exact forall_nil
  | .record .DamageGraphic => exact forall_nil
  | .record .DeadFish => exact forall_nil
  | .record .Bird => exact forall_nil
  | .record .AttackOrArmor => exact forall_nil
  | .record .Type50 => exact forall_nil
  | .record .Projectile => exact forall_nil
  | .record .ResourceCost => exact forall_nil
  | .record .TrainLocation => exact forall_nil
  | .record .Creatable => exact forall_nil
  | .record .BuildingAnnex => exact forall_nil
  | .record .Building => exact forall_nil
  | .record .UnitHeaders => exact forall_nil
  | .file => exact forall_nil

theorem EffectCommand.attrs_shown : ∀ A ∈ Node.attrs (.record .EffectCommand), AttrShown _ A :=
  forall_cons (fun x _ => .of 0 (EffectCommand.names_nodup x) rfl rfl)
    (forall_cons (fun x _ => .of 1 (EffectCommand.names_nodup x) rfl rfl)
    (forall_cons (fun x _ => .of 2 (EffectCommand.names_nodup x) rfl rfl)
    (forall_cons (fun x _ => .of 3 (EffectCommand.names_nodup x) rfl rfl)
    (forall_cons (fun x _ => .of 4 (EffectCommand.names_nodup x) rfl rfl)
    (forall_nil)))))

theorem Effect.attrs_shown : ∀ A ∈ Node.attrs (.record .Effect), AttrShown _ A :=
  forall_cons (fun x _ => .of 0 (Effect.names_nodup x) rfl rfl)
    (forall_cons (fun x _ => .of 1 (Effect.names_nodup x) rfl rfl)
    (forall_nil))

theorem SoundItem.attrs_shown : ∀ A ∈ Node.attrs (.record .SoundItem), AttrShown _ A :=
  forall_cons (fun x _ => .of 0 (SoundItem.names_nodup x) rfl rfl)
    (forall_cons (fun x _ => .of 1 (SoundItem.names_nodup x) rfl rfl)
    (forall_cons (fun x _ => .of 2 (SoundItem.names_nodup x) rfl rfl)
    (forall_cons (fun x _ => .of 3 (SoundItem.names_nodup x) rfl rfl)
    (forall_cons (fun x _ => .of 4 (SoundItem.names_nodup x) rfl rfl)
    (forall_nil)))))

theorem Sound.attrs_shown : ∀ A ∈ Node.attrs (.record .Sound), AttrShown _ A :=
  forall_cons (fun x _ => .of 0 (Sound.names_nodup x) rfl rfl)
    (forall_cons (fun x _ => .of 1 (Sound.names_nodup x) rfl rfl)
    (forall_cons (fun x _ => .of 2 (Sound.names_nodup x) rfl rfl)
    (forall_cons (fun x _ => .of 3 (Sound.names_nodup x) rfl rfl)
    (forall_cons (fun x _ => .of 4 (Sound.names_nodup x) rfl rfl)
    (forall_nil)))))

theorem PlayerColour.attrs_shown : ∀ A ∈ Node.attrs (.record .PlayerColour), AttrShown _ A :=
  forall_cons (fun x _ => .of 0 (PlayerColour.names_nodup x) rfl rfl)
    (forall_cons (fun x _ => .of 1 (PlayerColour.names_nodup x) rfl rfl)
    (forall_cons (fun x _ => .of 2 (PlayerColour.names_nodup x) rfl rfl)
    (forall_cons (fun x _ => .of 3 (PlayerColour.names_nodup x) rfl rfl)
    (forall_cons (fun x _ => .of 4 (PlayerColour.names_nodup x) rfl rfl)
    (forall_cons (fun x _ => .of 5 (PlayerColour.names_nodup x) rfl rfl)
    (forall_cons (fun x _ => .of 6 (PlayerColour.names_nodup x) rfl rfl)
    (forall_cons (fun x _ => .of 7 (PlayerColour.names_nodup x) rfl rfl)
    (forall_cons (fun x _ => .of 8 (PlayerColour.names_nodup x) rfl rfl)
    (forall_nil)))))))))

theorem GraphicDelta.attrs_shown : ∀ A ∈ Node.attrs (.record .GraphicDelta), AttrShown _ A :=
  forall_cons (fun x _ => .of 0 (GraphicDelta.names_nodup x) rfl rfl)
    (forall_cons (fun x _ => .of 1 (GraphicDelta.names_nodup x) rfl rfl)
    (forall_cons (fun x _ => .of 2 (GraphicDelta.names_nodup x) rfl rfl)
    (forall_cons (fun x _ => .of 3 (GraphicDelta.names_nodup x) rfl rfl)
    (forall_cons (fun x _ => .of 4 (GraphicDelta.names_nodup x) rfl rfl)
    (forall_cons (fun x _ => .of 5 (GraphicDelta.names_nodup x) rfl rfl)
    (forall_cons (fun x _ => .of 6 (GraphicDelta.names_nodup x) rfl rfl)
    (forall_nil)))))))

theorem GraphicAngleSound.attrs_shown : ∀ A ∈ Node.attrs (.record .GraphicAngleSound), AttrShown _ A :=
  forall_cons (fun x _ => .of 0 (GraphicAngleSound.names_nodup x) rfl rfl)
    (forall_cons (fun x _ => .of 1 (GraphicAngleSound.names_nodup x) rfl rfl)
    (forall_cons (fun x _ => .of 2 (GraphicAngleSound.names_nodup x) rfl rfl)
    (forall_cons (fun x _ => .of 3 (GraphicAngleSound.names_nodup x) rfl rfl)
    (forall_cons (fun x _ => .of 4 (GraphicAngleSound.names_nodup x) rfl rfl)
    (forall_cons (fun x _ => .of 5 (GraphicAngleSound.names_nodup x) rfl rfl)
    (forall_cons (fun x _ => .of 6 (GraphicAngleSound.names_nodup x) rfl rfl)
    (forall_cons (fun x _ => .of 7 (GraphicAngleSound.names_nodup x) rfl rfl)
    (forall_cons (fun x _ => .of 8 (GraphicAngleSound.names_nodup x) rfl rfl)
    (forall_nil)))))))))

theorem Graphic.attrs_shown : ∀ A ∈ Node.attrs (.record .Graphic), AttrShown _ A :=
  forall_cons (fun x _ => .of 0 (Graphic.names_nodup x) rfl rfl)
    (forall_cons (fun x _ => .of 1 (Graphic.names_nodup x) rfl rfl)
    (forall_cons (fun x _ => .of 2 (Graphic.names_nodup x) rfl rfl)
    (forall_cons (fun x _ => .of 3 (Graphic.names_nodup x) rfl rfl)
    (forall_cons (fun x _ => .of 4 (Graphic.names_nodup x) rfl rfl)
    (forall_cons (fun x _ => .of 5 (Graphic.names_nodup x) rfl rfl)
    (forall_cons (fun x _ => .of 6 (Graphic.names_nodup x) rfl rfl)
    (forall_cons (fun x _ => .of 7 (Graphic.names_nodup x) rfl rfl)
    (forall_cons (fun x _ => .of 8 (Graphic.names_nodup x) rfl rfl)
    (forall_cons (fun x _ => .of 9 (Graphic.names_nodup x) rfl rfl)
    (forall_cons (fun x _ => .of 10 (Graphic.names_nodup x) rfl rfl)
    (forall_cons (fun x _ => .of 11 (Graphic.names_nodup x) rfl rfl)
    (forall_cons (fun x _ => .of 12 (Graphic.names_nodup x) rfl rfl)
    (forall_cons (fun x _ => .of 13 (Graphic.names_nodup x) rfl rfl)
    (forall_cons (fun x _ => .of 14 (Graphic.names_nodup x) rfl rfl)
    (forall_cons (fun x _ => .of 15 (Graphic.names_nodup x) rfl rfl)
    (forall_cons (fun x _ => .of 16 (Graphic.names_nodup x) rfl rfl)
    (forall_cons (fun x _ => .of 17 (Graphic.names_nodup x) rfl rfl)
    (forall_cons (fun x _ => .of 18 (Graphic.names_nodup x) rfl rfl)
    (forall_cons (fun x _ => .of 19 (Graphic.names_nodup x) rfl rfl)
    (forall_cons (fun x _ => .of 20 (Graphic.names_nodup x) rfl rfl)
    (forall_cons (fun x _ => .of 21 (Graphic.names_nodup x) rfl rfl)
    (forall_cons (fun x _ => .of 22 (Graphic.names_nodup x) rfl rfl)
    (forall_cons (fun x _ => .of 23 (Graphic.names_nodup x) rfl rfl)
    (forall_nil))))))))))))))))))))))))

theorem TerrainPassGraphic.attrs_shown : ∀ A ∈ Node.attrs (.record .TerrainPassGraphic), AttrShown _ A :=
  forall_cons (fun x _ => .of 0 (TerrainPassGraphic.names_nodup x) rfl rfl)
    (forall_cons (fun x _ => .of 1 (TerrainPassGraphic.names_nodup x) rfl rfl)
    (forall_cons (fun x _ => .of 2 (TerrainPassGraphic.names_nodup x) rfl rfl)
    (forall_cons (fun x _ => .of 3 (TerrainPassGraphic.names_nodup x) rfl rfl)
    (forall_nil))))

theorem TerrainRestriction.attrs_shown (n : Nat) : ∀ A ∈ Node.attrs (.record (.TerrainRestriction n)), AttrShown _ A :=
  forall_cons (fun x _ => .of 0 (TerrainRestriction.names_nodup x) rfl rfl)
    (forall_cons (fun x _ => .of 1 (TerrainRestriction.names_nodup x) rfl rfl)
    (forall_nil))

theorem FrameData.attrs_shown : ∀ A ∈ Node.attrs (.record .FrameData), AttrShown _ A :=
  forall_cons (fun x _ => .of 0 (FrameData.names_nodup x) rfl rfl)
    (forall_cons (fun x _ => .of 1 (FrameData.names_nodup x) rfl rfl)
    (forall_cons (fun x _ => .of 2 (FrameData.names_nodup x) rfl rfl)
    (forall_nil)))

theorem Terrain.attrs_shown : ∀ A ∈ Node.attrs (.record .Terrain), AttrShown _ A :=
  forall_cons (fun x _ => .of 0 (Terrain.names_nodup x) rfl rfl)
    (forall_cons (fun x _ => .of 1 (Terrain.names_nodup x) rfl rfl)
    (forall_cons (fun x _ => .of 2 (Terrain.names_nodup x) rfl rfl)
    (forall_cons (fun x _ => .of 3 (Terrain.names_nodup x) rfl rfl)
    (forall_cons (fun x _ => .of 4 (Terrain.names_nodup x) rfl rfl)
    (forall_cons (fun x _ => .of 5 (Terrain.names_nodup x) rfl rfl)
    (forall_cons (fun x _ => .of 6 (Terrain.names_nodup x) rfl rfl)
    (forall_cons (fun x _ => .of 7 (Terrain.names_nodup x) rfl rfl)
    (forall_cons (fun x _ => .of 8 (Terrain.names_nodup x) rfl rfl)
    (forall_cons (fun x _ => .of 9 (Terrain.names_nodup x) rfl rfl)
    (forall_cons (fun x _ => .of 10 (Terrain.names_nodup x) rfl rfl)
    (forall_cons (fun x _ => .of 11 (Terrain.names_nodup x) rfl rfl)
    (forall_cons (fun x _ => .of 12 (Terrain.names_nodup x) rfl rfl)
    (forall_cons (fun x _ => .of 13 (Terrain.names_nodup x) rfl rfl)
    (forall_cons (fun x _ => .of 14 (Terrain.names_nodup x) rfl rfl)
    (forall_cons (fun x _ => .of 15 (Terrain.names_nodup x) rfl rfl)
    (forall_cons (fun x _ => .of 16 (Terrain.names_nodup x) rfl rfl)
    (forall_cons (fun x _ => .of 17 (Terrain.names_nodup x) rfl rfl)
    (forall_cons (fun x _ => .of 18 (Terrain.names_nodup x) rfl rfl)
    (forall_cons (fun x _ => .of 19 (Terrain.names_nodup x) rfl rfl)
    (forall_cons (fun x _ => .of 20 (Terrain.names_nodup x) rfl rfl)
    (forall_cons (fun x _ => .of 21 (Terrain.names_nodup x) rfl rfl)
    (forall_cons (fun x _ => .of 22 (Terrain.names_nodup x) rfl rfl)
    (forall_cons (fun x _ => .of 23 (Terrain.names_nodup x) rfl rfl)
    (forall_cons (fun x _ => .of 24 (Terrain.names_nodup x) rfl rfl)
    (forall_cons (fun x _ => .of 25 (Terrain.names_nodup x) rfl rfl)
    (forall_cons (fun x _ => .of 26 (Terrain.names_nodup x) rfl rfl)
    (forall_cons (fun x _ => .of 27 (Terrain.names_nodup x) rfl rfl)
    (forall_cons (fun x _ => .of 28 (Terrain.names_nodup x) rfl rfl)
    (forall_cons (fun x _ => .of 29 (Terrain.names_nodup x) rfl rfl)
    (forall_cons (fun x _ => .of 30 (Terrain.names_nodup x) rfl rfl)
    (forall_cons (fun x _ => .of 31 (Terrain.names_nodup x) rfl rfl)
    (forall_cons (fun x _ => .of 32 (Terrain.names_nodup x) rfl rfl)
    (forall_cons (fun x _ => .of 33 (Terrain.names_nodup x) rfl rfl)
    (forall_cons (fun x _ => .of 34 (Terrain.names_nodup x) rfl rfl)
    (forall_cons (fun x _ => .of 35 (Terrain.names_nodup x) rfl rfl)
    (forall_cons (fun x _ => .of 36 (Terrain.names_nodup x) rfl rfl)
    (forall_cons (fun x _ => .of 37 (Terrain.names_nodup x) rfl rfl)
    (forall_nil))))))))))))))))))))))))))))))))))))))

theorem TileSize.attrs_shown : ∀ A ∈ Node.attrs (.record .TileSize), AttrShown _ A :=
  forall_cons (fun x _ => .of 0 (TileSize.names_nodup x) rfl rfl)
    (forall_cons (fun x _ => .of 1 (TileSize.names_nodup x) rfl rfl)
    (forall_cons (fun x _ => .of 2 (TileSize.names_nodup x) rfl rfl)
    (forall_nil)))

theorem TerrainBlock.attrs_shown : ∀ A ∈ Node.attrs (.record .TerrainBlock), AttrShown _ A :=
  forall_cons (fun x _ => .of 0 (TerrainBlock.names_nodup x) rfl rfl)
    (forall_cons (fun x _ => .of 1 (TerrainBlock.names_nodup x) rfl rfl)
    (forall_cons (fun x _ => .of 2 (TerrainBlock.names_nodup x) rfl rfl)
    (forall_cons (fun x _ => .of 3 (TerrainBlock.names_nodup x) rfl rfl)
    (forall_cons (fun x _ => .of 4 (TerrainBlock.names_nodup x) rfl rfl)
    (forall_cons (fun x _ => .of 5 (TerrainBlock.names_nodup x) rfl rfl)
    (forall_cons (fun x _ => .of 6 (TerrainBlock.names_nodup x) rfl rfl)
    (forall_cons (fun x _ => .of 7 (TerrainBlock.names_nodup x) rfl rfl)
    (forall_cons (fun x _ => .of 8 (TerrainBlock.names_nodup x) rfl rfl)
    (forall_cons (fun x _ => .of 9 (TerrainBlock.names_nodup x) rfl rfl)
    (forall_cons (fun x _ => .of 10 (TerrainBlock.names_nodup x) rfl rfl)
    (forall_cons (fun x _ => .of 11 (TerrainBlock.names_nodup x) rfl rfl)
    (forall_cons (fun x _ => .of 12 (TerrainBlock.names_nodup x) rfl rfl)
    (forall_cons (fun x _ => .of 13 (TerrainBlock.names_nodup x) rfl rfl)
    (forall_cons (fun x _ => .of 14 (TerrainBlock.names_nodup x) rfl rfl)
    (forall_cons (fun x _ => .of 15 (TerrainBlock.names_nodup x) rfl rfl)
    (forall_cons (fun x _ => .of 16 (TerrainBlock.names_nodup x) rfl rfl)
    (forall_cons (fun x _ => .of 17 (TerrainBlock.names_nodup x) rfl rfl)
    (forall_cons (fun x _ => .of 18 (TerrainBlock.names_nodup x) rfl rfl)
    (forall_cons (fun x _ => .of 19 (TerrainBlock.names_nodup x) rfl rfl)
    (forall_cons (fun x _ => .of 20 (TerrainBlock.names_nodup x) rfl rfl)
    (forall_cons (fun x _ => .of 21 (TerrainBlock.names_nodup x) rfl rfl)
    (forall_cons (fun x _ => .of 22 (TerrainBlock.names_nodup x) rfl rfl)
    (forall_cons (fun x _ => .of 23 (TerrainBlock.names_nodup x) rfl rfl)
    (forall_cons (fun x _ => .of 24 (TerrainBlock.names_nodup x) rfl rfl)
    (forall_cons (fun x _ => .of 25 (TerrainBlock.names_nodup x) rfl rfl)
    (forall_cons (fun x _ => .of 26 (TerrainBlock.names_nodup x) rfl rfl)
    (forall_cons (fun x _ => .of 27 (TerrainBlock.names_nodup x) rfl rfl)
    (forall_cons (fun x _ => .of 28 (TerrainBlock.names_nodup x) rfl rfl)
    (forall_cons (fun x _ => .of 29 (TerrainBlock.names_nodup x) rfl rfl)
    (forall_cons (fun x _ => .of 30 (TerrainBlock.names_nodup x) rfl rfl)
    (forall_cons (fun x _ => .of 31 (TerrainBlock.names_nodup x) rfl rfl)
    (forall_cons (fun x _ => .of 32 (TerrainBlock.names_nodup x) rfl rfl)
    (forall_cons (fun x _ => .of 33 (TerrainBlock.names_nodup x) rfl rfl)
    (forall_nil))))))))))))))))))))))))))))))))))

theorem MapUnit.attrs_shown : ∀ A ∈ Node.attrs (.record .MapUnit), AttrShown _ A :=
  forall_cons (fun x _ => .of 0 (MapUnit.names_nodup x) rfl rfl)
    (forall_cons (fun x _ => .of 1 (MapUnit.names_nodup x) rfl rfl)
    (forall_cons (fun x _ => .of 2 (MapUnit.names_nodup x) rfl rfl)
    (forall_cons (fun x _ => .of 3 (MapUnit.names_nodup x) rfl rfl)
    (forall_cons (fun x _ => .of 4 (MapUnit.names_nodup x) rfl rfl)
    (forall_cons (fun x _ => .of 5 (MapUnit.names_nodup x) rfl rfl)
    (forall_cons (fun x _ => .of 6 (MapUnit.names_nodup x) rfl rfl)
    (forall_cons (fun x _ => .of 7 (MapUnit.names_nodup x) rfl rfl)
    (forall_cons (fun x _ => .of 8 (MapUnit.names_nodup x) rfl rfl)
    (forall_cons (fun x _ => .of 9 (MapUnit.names_nodup x) rfl rfl)
    (forall_cons (fun x _ => .of 10 (MapUnit.names_nodup x) rfl rfl)
    (forall_cons (fun x _ => .of 11 (MapUnit.names_nodup x) rfl rfl)
    (forall_cons (fun x _ => .of 12 (MapUnit.names_nodup x) rfl rfl)
    (forall_nil)))))))))))))

theorem MapTerrain.attrs_shown : ∀ A ∈ Node.attrs (.record .MapTerrain), AttrShown _ A :=
  forall_cons (fun x _ => .of 0 (MapTerrain.names_nodup x) rfl rfl)
    (forall_cons (fun x _ => .of 1 (MapTerrain.names_nodup x) rfl rfl)
    (forall_cons (fun x _ => .of 2 (MapTerrain.names_nodup x) rfl rfl)
    (forall_cons (fun x _ => .of 3 (MapTerrain.names_nodup x) rfl rfl)
    (forall_cons (fun x _ => .of 4 (MapTerrain.names_nodup x) rfl rfl)
    (forall_cons (fun x _ => .of 5 (MapTerrain.names_nodup x) rfl rfl)
    (forall_nil))))))

theorem MapLand.attrs_shown : ∀ A ∈ Node.attrs (.record .MapLand), AttrShown _ A :=
  forall_cons (fun x _ => .of 0 (MapLand.names_nodup x) rfl rfl)
    (forall_cons (fun x _ => .of 1 (MapLand.names_nodup x) rfl rfl)
    (forall_cons (fun x _ => .of 2 (MapLand.names_nodup x) rfl rfl)
    (forall_cons (fun x _ => .of 3 (MapLand.names_nodup x) rfl rfl)
    (forall_cons (fun x _ => .of 4 (MapLand.names_nodup x) rfl rfl)
    (forall_cons (fun x _ => .of 5 (MapLand.names_nodup x) rfl rfl)
    (forall_cons (fun x _ => .of 6 (MapLand.names_nodup x) rfl rfl)
    (forall_cons (fun x _ => .of 7 (MapLand.names_nodup x) rfl rfl)
    (forall_cons (fun x _ => .of 8 (MapLand.names_nodup x) rfl rfl)
    (forall_cons (fun x _ => .of 9 (MapLand.names_nodup x) rfl rfl)
    (forall_cons (fun x _ => .of 10 (MapLand.names_nodup x) rfl rfl)
    (forall_cons (fun x _ => .of 11 (MapLand.names_nodup x) rfl rfl)
    (forall_cons (fun x _ => .of 12 (MapLand.names_nodup x) rfl rfl)
    (forall_cons (fun x _ => .of 13 (MapLand.names_nodup x) rfl rfl)
    (forall_cons (fun x _ => .of 14 (MapLand.names_nodup x) rfl rfl)
    (forall_nil)))))))))))))))

theorem MapElevation.attrs_shown : ∀ A ∈ Node.attrs (.record .MapElevation), AttrShown _ A :=
  forall_cons (fun x _ => .of 0 (MapElevation.names_nodup x) rfl rfl)
    (forall_cons (fun x _ => .of 1 (MapElevation.names_nodup x) rfl rfl)
    (forall_cons (fun x _ => .of 2 (MapElevation.names_nodup x) rfl rfl)
    (forall_cons (fun x _ => .of 3 (MapElevation.names_nodup x) rfl rfl)
    (forall_cons (fun x _ => .of 4 (MapElevation.names_nodup x) rfl rfl)
    (forall_cons (fun x _ => .of 5 (MapElevation.names_nodup x) rfl rfl)
    (forall_nil))))))

theorem MapInfo.attrs_shown : ∀ A ∈ Node.attrs (.record .MapInfo), AttrShown _ A :=
  forall_cons (fun x _ => .of 0 (MapInfo.names_nodup x) rfl rfl)
    (forall_cons (fun x _ => .of 1 (MapInfo.names_nodup x) rfl rfl)
    (forall_cons (fun x _ => .of 2 (MapInfo.names_nodup x) rfl rfl)
    (forall_cons (fun x _ => .of 3 (MapInfo.names_nodup x) rfl rfl)
    (forall_cons (fun x _ => .of 4 (MapInfo.names_nodup x) rfl rfl)
    (forall_cons (fun x _ => .of 5 (MapInfo.names_nodup x) rfl rfl)
    (forall_cons (fun x _ => .of 6 (MapInfo.names_nodup x) rfl rfl)
    (forall_cons (fun x _ => .of 7 (MapInfo.names_nodup x) rfl rfl)
    (forall_cons (fun x _ => .of 8 (MapInfo.names_nodup x) rfl rfl)
    (forall_cons (fun x _ => .of 9 (MapInfo.names_nodup x) rfl rfl)
    (forall_cons (fun x _ => .of 10 (MapInfo.names_nodup x) rfl rfl)
    (forall_cons (fun x _ => .of 11 (MapInfo.names_nodup x) rfl rfl)
    (forall_cons (fun x _ => .of 12 (MapInfo.names_nodup x) rfl rfl)
    (forall_cons (fun x _ => .of 13 (MapInfo.names_nodup x) rfl rfl)
    (forall_cons (fun x _ => .of 14 (MapInfo.names_nodup x) rfl rfl)
    (forall_cons (fun x _ => .of 15 (MapInfo.names_nodup x) rfl rfl)
    (forall_cons (fun x _ => .of 16 (MapInfo.names_nodup x) rfl rfl)
    (forall_cons (fun x _ => .of 17 (MapInfo.names_nodup x) rfl rfl)
    (forall_cons (fun x _ => .of 18 (MapInfo.names_nodup x) rfl rfl)
    (forall_cons (fun x _ => .of 19 (MapInfo.names_nodup x) rfl rfl)
    (forall_cons (fun x _ => .of 20 (MapInfo.names_nodup x) rfl rfl)
    (forall_cons (fun x _ => .of 21 (MapInfo.names_nodup x) rfl rfl)
    (forall_nil))))))))))))))))))))))

theorem RandomMaps.attrs_shown : ∀ A ∈ Node.attrs (.record .RandomMaps), AttrShown _ A :=
  forall_cons (fun x _ => .of 0 (RandomMaps.names_nodup x) rfl rfl)
    (forall_cons (fun x _ => .of 1 (RandomMaps.names_nodup x) rfl rfl)
    (forall_cons (fun x _ => .of 2 (RandomMaps.names_nodup x) rfl rfl)
    (forall_nil)))

theorem ResearchResourceCost.attrs_shown : ∀ A ∈ Node.attrs (.record .ResearchResourceCost), AttrShown _ A :=
  forall_cons (fun x _ => .of 0 (ResearchResourceCost.names_nodup x) rfl rfl)
    (forall_cons (fun x _ => .of 1 (ResearchResourceCost.names_nodup x) rfl rfl)
    (forall_cons (fun x _ => .of 2 (ResearchResourceCost.names_nodup x) rfl rfl)
    (forall_nil)))

theorem ResearchLocation.attrs_shown : ∀ A ∈ Node.attrs (.record .ResearchLocation), AttrShown _ A :=
  forall_cons (fun x _ => .of 0 (ResearchLocation.names_nodup x) rfl rfl)
    (forall_cons (fun x _ => .of 1 (ResearchLocation.names_nodup x) rfl rfl)
    (forall_cons (fun x _ => .of 2 (ResearchLocation.names_nodup x) rfl rfl)
    (forall_cons (fun x _ => .of 3 (ResearchLocation.names_nodup x) rfl rfl)
    (forall_nil))))

theorem Tech.attrs_shown : ∀ A ∈ Node.attrs (.record .Tech), AttrShown _ A :=
  forall_cons (fun x _ => .of 0 (Tech.names_nodup x) rfl rfl)
    (forall_cons (fun x _ => .of 1 (Tech.names_nodup x) rfl rfl)
    (forall_cons (fun x _ => .of 2 (Tech.names_nodup x) rfl rfl)
    (forall_cons (fun x _ => .of 3 (Tech.names_nodup x) rfl rfl)
    (forall_cons (fun x _ => .of 4 (Tech.names_nodup x) rfl rfl)
    (forall_cons (fun x _ => .of 5 (Tech.names_nodup x) rfl rfl)
    (forall_cons (fun x _ => .of 6 (Tech.names_nodup x) rfl rfl)
    (forall_cons (fun x _ => .of 7 (Tech.names_nodup x) rfl rfl)
    (forall_cons (fun x _ => .of 8 (Tech.names_nodup x) rfl rfl)
    (forall_cons (fun x _ => .of 9 (Tech.names_nodup x) rfl rfl)
    (forall_cons (fun x _ => .of 10 (Tech.names_nodup x) rfl rfl)
    (forall_cons (fun x _ => .of 11 (Tech.names_nodup x) rfl rfl)
    (forall_cons (fun x _ => .of 12 (Tech.names_nodup x) rfl rfl)
    (forall_cons (fun x _ => .of 13 (Tech.names_nodup x) rfl rfl)
    (forall_cons (fun x _ => .of 14 (Tech.names_nodup x) rfl rfl)
    (forall_nil)))))))))))))))

theorem Common.attrs_shown : ∀ A ∈ Node.attrs (.record .Common), AttrShown _ A :=
  forall_cons (fun x _ => .of 0 (Common.names_nodup x) rfl rfl)
    (forall_cons (fun x _ => .of 1 (Common.names_nodup x) rfl rfl)
    (forall_cons (fun x _ => .of 2 (Common.names_nodup x) rfl rfl)
    (forall_nil)))

theorem TechTreeAge.attrs_shown : ∀ A ∈ Node.attrs (.record .TechTreeAge), AttrShown _ A :=
  forall_cons (fun x _ => .of 0 (TechTreeAge.names_nodup x) rfl rfl)
    (forall_cons (fun x _ => .of 1 (TechTreeAge.names_nodup x) rfl rfl)
    (forall_cons (fun x _ => .of 2 (TechTreeAge.names_nodup x) rfl rfl)
    (forall_cons (fun x _ => .of 3 (TechTreeAge.names_nodup x) rfl rfl)
    (forall_cons (fun x _ => .of 4 (TechTreeAge.names_nodup x) rfl rfl)
    (forall_cons (fun x _ => .of 5 (TechTreeAge.names_nodup x) rfl rfl)
    (forall_cons (fun x _ => .of 6 (TechTreeAge.names_nodup x) rfl rfl)
    (forall_cons (fun x _ => .of 7 (TechTreeAge.names_nodup x) rfl rfl)
    (forall_cons (fun x _ => .of 8 (TechTreeAge.names_nodup x) rfl rfl)
    (forall_cons (fun x _ => .of 9 (TechTreeAge.names_nodup x) rfl rfl)
    (forall_cons (fun x _ => .of 10 (TechTreeAge.names_nodup x) rfl rfl)
    (forall_nil)))))))))))

theorem BuildingConnection.attrs_shown : ∀ A ∈ Node.attrs (.record .BuildingConnection), AttrShown _ A :=
  forall_cons (fun x _ => .of 0 (BuildingConnection.names_nodup x) rfl rfl)
    (forall_cons (fun x _ => .of 1 (BuildingConnection.names_nodup x) rfl rfl)
    (forall_cons (fun x _ => .of 2 (BuildingConnection.names_nodup x) rfl rfl)
    (forall_cons (fun x _ => .of 3 (BuildingConnection.names_nodup x) rfl rfl)
    (forall_cons (fun x _ => .of 4 (BuildingConnection.names_nodup x) rfl rfl)
    (forall_cons (fun x _ => .of 5 (BuildingConnection.names_nodup x) rfl rfl)
    (forall_cons (fun x _ => .of 6 (BuildingConnection.names_nodup x) rfl rfl)
    (forall_cons (fun x _ => .of 7 (BuildingConnection.names_nodup x) rfl rfl)
    (forall_cons (fun x _ => .of 8 (BuildingConnection.names_nodup x) rfl rfl)
    (forall_cons (fun x _ => .of 9 (BuildingConnection.names_nodup x) rfl rfl)
    (forall_cons (fun x _ => .of 10 (BuildingConnection.names_nodup x) rfl rfl)
    (forall_nil)))))))))))

theorem UnitConnection.attrs_shown : ∀ A ∈ Node.attrs (.record .UnitConnection), AttrShown _ A :=
  forall_cons (fun x _ => .of 0 (UnitConnection.names_nodup x) rfl rfl)
    (forall_cons (fun x _ => .of 1 (UnitConnection.names_nodup x) rfl rfl)
    (forall_cons (fun x _ => .of 2 (UnitConnection.names_nodup x) rfl rfl)
    (forall_cons (fun x _ => .of 3 (UnitConnection.names_nodup x) rfl rfl)
    (forall_cons (fun x _ => .of 4 (UnitConnection.names_nodup x) rfl rfl)
    (forall_cons (fun x _ => .of 5 (UnitConnection.names_nodup x) rfl rfl)
    (forall_cons (fun x _ => .of 6 (UnitConnection.names_nodup x) rfl rfl)
    (forall_cons (fun x _ => .of 7 (UnitConnection.names_nodup x) rfl rfl)
    (forall_cons (fun x _ => .of 8 (UnitConnection.names_nodup x) rfl rfl)
    (forall_cons (fun x _ => .of 9 (UnitConnection.names_nodup x) rfl rfl)
    (forall_nil))))))))))

theorem ResearchConnection.attrs_shown : ∀ A ∈ Node.attrs (.record .ResearchConnection), AttrShown _ A :=
  forall_cons (fun x _ => .of 0 (ResearchConnection.names_nodup x) rfl rfl)
    (forall_cons (fun x _ => .of 1 (ResearchConnection.names_nodup x) rfl rfl)
    (forall_cons (fun x _ => .of 2 (ResearchConnection.names_nodup x) rfl rfl)
    (forall_cons (fun x _ => .of 3 (ResearchConnection.names_nodup x) rfl rfl)
    (forall_cons (fun x _ => .of 4 (ResearchConnection.names_nodup x) rfl rfl)
    (forall_cons (fun x _ => .of 5 (ResearchConnection.names_nodup x) rfl rfl)
    (forall_cons (fun x _ => .of 6 (ResearchConnection.names_nodup x) rfl rfl)
    (forall_cons (fun x _ => .of 7 (ResearchConnection.names_nodup x) rfl rfl)
    (forall_cons (fun x _ => .of 8 (ResearchConnection.names_nodup x) rfl rfl)
    (forall_cons (fun x _ => .of 9 (ResearchConnection.names_nodup x) rfl rfl)
    (forall_nil))))))))))

theorem TechTree.attrs_shown : ∀ A ∈ Node.attrs (.record .TechTree), AttrShown _ A :=
  forall_cons (fun x _ => .of 0 (TechTree.names_nodup x) rfl rfl)
    (forall_cons (fun x _ => .of 1 (TechTree.names_nodup x) rfl rfl)
    (forall_cons (fun x _ => .of 2 (TechTree.names_nodup x) rfl rfl)
    (forall_cons (fun x _ => .of 3 (TechTree.names_nodup x) rfl rfl)
    (forall_cons (fun x _ => .of 4 (TechTree.names_nodup x) rfl rfl)
    (forall_nil)))))

theorem Task.attrs_shown : ∀ A ∈ Node.attrs (.record .Task), AttrShown _ A :=
  forall_cons (fun x _ => .of 0 (Task.names_nodup x) rfl rfl)
    (forall_cons (fun x _ => .of 1 (Task.names_nodup x) rfl rfl)
    (forall_cons (fun x _ => .of 2 (Task.names_nodup x) rfl rfl)
    (forall_cons (fun x _ => .of 3 (Task.names_nodup x) rfl rfl)
    (forall_cons (fun x _ => .of 4 (Task.names_nodup x) rfl rfl)
    (forall_cons (fun x _ => .of 5 (Task.names_nodup x) rfl rfl)
    (forall_cons (fun x _ => .of 6 (Task.names_nodup x) rfl rfl)
    (forall_cons (fun x _ => .of 7 (Task.names_nodup x) rfl rfl)
    (forall_cons (fun x _ => .of 8 (Task.names_nodup x) rfl rfl)
    (forall_cons (fun x _ => .of 9 (Task.names_nodup x) rfl rfl)
    (forall_cons (fun x _ => .of 10 (Task.names_nodup x) rfl rfl)
    (forall_cons (fun x _ => .of 11 (Task.names_nodup x) rfl rfl)
    (forall_cons (fun x _ => .of 12 (Task.names_nodup x) rfl rfl)
    (forall_cons (fun x _ => .of 13 (Task.names_nodup x) rfl rfl)
    (forall_cons (fun x _ => .of 14 (Task.names_nodup x) rfl rfl)
    (forall_cons (fun x _ => .of 15 (Task.names_nodup x) rfl rfl)
    (forall_cons (fun x _ => .of 16 (Task.names_nodup x) rfl rfl)
    (forall_cons (fun x _ => .of 17 (Task.names_nodup x) rfl rfl)
    (forall_cons (fun x _ => .of 18 (Task.names_nodup x) rfl rfl)
    (forall_cons (fun x _ => .of 19 (Task.names_nodup x) rfl rfl)
    (forall_cons (fun x _ => .of 20 (Task.names_nodup x) rfl rfl)
    (forall_cons (fun x _ => .of 21 (Task.names_nodup x) rfl rfl)
    (forall_cons (fun x _ => .of 22 (Task.names_nodup x) rfl rfl)
    (forall_cons (fun x _ => .of 23 (Task.names_nodup x) rfl rfl)
    (forall_cons (fun x _ => .of 24 (Task.names_nodup x) rfl rfl)
    (forall_cons (fun x _ => .of 25 (Task.names_nodup x) rfl rfl)
    (forall_cons (fun x _ => .of 26 (Task.names_nodup x) rfl rfl)
    (forall_cons (fun x _ => .of 27 (Task.names_nodup x) rfl rfl)
    (forall_cons (fun x _ => .of 28 (Task.names_nodup x) rfl rfl)
    (forall_cons (fun x _ => .of 29 (Task.names_nodup x) rfl rfl)
    (forall_cons (fun x _ => .of 30 (Task.names_nodup x) rfl rfl)
    (forall_cons (fun x _ => .of 31 (Task.names_nodup x) rfl rfl)
    (forall_nil))))))))))))))))))))))))))))))))

theorem ResourceStorage.attrs_shown : ∀ A ∈ Node.attrs (.record .ResourceStorage), AttrShown _ A :=
  forall_cons (fun x _ => .of 0 (ResourceStorage.names_nodup x) rfl rfl)
    (forall_cons (fun x _ => .of 1 (ResourceStorage.names_nodup x) rfl rfl)
    (forall_cons (fun x _ => .of 2 (ResourceStorage.names_nodup x) rfl rfl)
    (forall_nil)))

theorem DamageGraphic.attrs_shown : ∀ A ∈ Node.attrs (.record .DamageGraphic), AttrShown _ A :=
  forall_cons (fun x _ => .of 0 (DamageGraphic.names_nodup x) rfl rfl)
    (forall_cons (fun x _ => .of 1 (DamageGraphic.names_nodup x) rfl rfl)
    (forall_cons (fun x _ => .of 2 (DamageGraphic.names_nodup x) rfl rfl)
    (forall_nil)))

theorem DeadFish.attrs_shown : ∀ A ∈ Node.attrs (.record .DeadFish), AttrShown _ A :=
  forall_cons (fun x _ => .of 0 (DeadFish.names_nodup x) rfl rfl)
    (forall_cons (fun x _ => .of 1 (DeadFish.names_nodup x) rfl rfl)
    (forall_cons (fun x _ => .of 2 (DeadFish.names_nodup x) rfl rfl)
    (forall_cons (fun x _ => .of 3 (DeadFish.names_nodup x) rfl rfl)
    (forall_cons (fun x _ => .of 4 (DeadFish.names_nodup x) rfl rfl)
    (forall_cons (fun x _ => .of 5 (DeadFish.names_nodup x) rfl rfl)
    (forall_cons (fun x _ => .of 6 (DeadFish.names_nodup x) rfl rfl)
    (forall_cons (fun x _ => .of 7 (DeadFish.names_nodup x) rfl rfl)
    (forall_cons (fun x _ => .of 8 (DeadFish.names_nodup x) rfl rfl)
    (forall_cons (fun x _ => .of 9 (DeadFish.names_nodup x) rfl rfl)
    (forall_cons (fun x _ => .of 10 (DeadFish.names_nodup x) rfl rfl)
    (forall_cons (fun x _ => .of 11 (DeadFish.names_nodup x) rfl rfl)
    (forall_cons (fun x _ => .of 12 (DeadFish.names_nodup x) rfl rfl)
    (forall_cons (fun x _ => .of 13 (DeadFish.names_nodup x) rfl rfl)
    (forall_nil))))))))))))))

theorem Bird.attrs_shown : ∀ A ∈ Node.attrs (.record .Bird), AttrShown _ A :=
  forall_cons (fun x _ => .of 0 (Bird.names_nodup x) rfl rfl)
    (forall_cons (fun x _ => .of 1 (Bird.names_nodup x) rfl rfl)
    (forall_cons (fun x _ => .of 2 (Bird.names_nodup x) rfl rfl)
    (forall_cons (fun x _ => .of 3 (Bird.names_nodup x) rfl rfl)
    (forall_cons (fun x _ => .of 4 (Bird.names_nodup x) rfl rfl)
    (forall_cons (fun x _ => .of 5 (Bird.names_nodup x) rfl rfl)
    (forall_cons (fun x _ => .of 6 (Bird.names_nodup x) rfl rfl)
    (forall_cons (fun x _ => .of 7 (Bird.names_nodup x) rfl rfl)
    (forall_cons (fun x _ => .of 8 (Bird.names_nodup x) rfl rfl)
    (forall_cons (fun x _ => .of 9 (Bird.names_nodup x) rfl rfl)
    (forall_cons (fun x _ => .of 10 (Bird.names_nodup x) rfl rfl)
    (forall_nil)))))))))))

theorem AttackOrArmor.attrs_shown : ∀ A ∈ Node.attrs (.record .AttackOrArmor), AttrShown _ A :=
  forall_cons (fun x _ => .of 0 (AttackOrArmor.names_nodup x) rfl rfl)
    (forall_cons (fun x _ => .of 1 (AttackOrArmor.names_nodup x) rfl rfl)
    (forall_nil))

theorem Type50.attrs_shown : ∀ A ∈ Node.attrs (.record .Type50), AttrShown _ A :=
  forall_cons (fun x _ => .of 0 (Type50.names_nodup x) rfl rfl)
    (forall_cons (fun x _ => .of 1 (Type50.names_nodup x) rfl rfl)
    (forall_cons (fun x _ => .of 2 (Type50.names_nodup x) rfl rfl)
    (forall_cons (fun x _ => .of 3 (Type50.names_nodup x) rfl rfl)
    (forall_cons (fun x _ => .of 4 (Type50.names_nodup x) rfl rfl)
    (forall_cons (fun x _ => .of 5 (Type50.names_nodup x) rfl rfl)
    (forall_cons (fun x _ => .of 6 (Type50.names_nodup x) rfl rfl)
    (forall_cons (fun x _ => .of 7 (Type50.names_nodup x) rfl rfl)
    (forall_cons (fun x _ => .of 8 (Type50.names_nodup x) rfl rfl)
    (forall_cons (fun x _ => .of 9 (Type50.names_nodup x) rfl rfl)
    (forall_cons (fun x _ => .of 10 (Type50.names_nodup x) rfl rfl)
    (forall_cons (fun x _ => .of 11 (Type50.names_nodup x) rfl rfl)
    (forall_cons (fun x _ => .of 12 (Type50.names_nodup x) rfl rfl)
    (forall_cons (fun x _ => .of 13 (Type50.names_nodup x) rfl rfl)
    (forall_cons (fun x _ => .of 14 (Type50.names_nodup x) rfl rfl)
    (forall_cons (fun x _ => .of 15 (Type50.names_nodup x) rfl rfl)
    (forall_cons (fun x _ => .of 16 (Type50.names_nodup x) rfl rfl)
    (forall_cons (fun x _ => .of 17 (Type50.names_nodup x) rfl rfl)
    (forall_cons (fun x _ => .of 18 (Type50.names_nodup x) rfl rfl)
    (forall_cons (fun x _ => .of 19 (Type50.names_nodup x) rfl rfl)
    (forall_cons (fun x _ => .of 20 (Type50.names_nodup x) rfl rfl)
    (forall_cons (fun x _ => .of 21 (Type50.names_nodup x) rfl rfl)
    (forall_cons (fun x _ => .of 22 (Type50.names_nodup x) rfl rfl)
    (forall_cons (fun x _ => .of 23 (Type50.names_nodup x) rfl rfl)
    (forall_cons (fun x _ => .of 24 (Type50.names_nodup x) rfl rfl)
    (forall_cons (fun x _ => .of 25 (Type50.names_nodup x) rfl rfl)
    (forall_cons (fun x _ => .of 26 (Type50.names_nodup x) rfl rfl)
    (forall_nil)))))))))))))))))))))))))))

theorem Projectile.attrs_shown : ∀ A ∈ Node.attrs (.record .Projectile), AttrShown _ A :=
  forall_cons (fun x _ => .of 0 (Projectile.names_nodup x) rfl rfl)
    (forall_cons (fun x _ => .of 1 (Projectile.names_nodup x) rfl rfl)
    (forall_cons (fun x _ => .of 2 (Projectile.names_nodup x) rfl rfl)
    (forall_cons (fun x _ => .of 3 (Projectile.names_nodup x) rfl rfl)
    (forall_cons (fun x _ => .of 4 (Projectile.names_nodup x) rfl rfl)
    (forall_cons (fun x _ => .of 5 (Projectile.names_nodup x) rfl rfl)
    (forall_nil))))))

theorem ResourceCost.attrs_shown : ∀ A ∈ Node.attrs (.record .ResourceCost), AttrShown _ A :=
  forall_cons (fun x _ => .of 0 (ResourceCost.names_nodup x) rfl rfl)
    (forall_cons (fun x _ => .of 1 (ResourceCost.names_nodup x) rfl rfl)
    (forall_cons (fun x _ => .of 2 (ResourceCost.names_nodup x) rfl rfl)
    (forall_nil)))

theorem TrainLocation.attrs_shown : ∀ A ∈ Node.attrs (.record .TrainLocation), AttrShown _ A :=
  forall_cons (fun x _ => .of 0 (TrainLocation.names_nodup x) rfl rfl)
    (forall_cons (fun x _ => .of 1 (TrainLocation.names_nodup x) rfl rfl)
    (forall_cons (fun x _ => .of 2 (TrainLocation.names_nodup x) rfl rfl)
    (forall_cons (fun x _ => .of 3 (TrainLocation.names_nodup x) rfl rfl)
    (forall_nil))))

theorem Creatable.attrs_shown : ∀ A ∈ Node.attrs (.record .Creatable), AttrShown _ A :=
  forall_cons (fun x _ => .of 0 (Creatable.names_nodup x) rfl rfl)
    (forall_cons (fun x _ => .of 1 (Creatable.names_nodup x) rfl rfl)
    (forall_cons (fun x _ => .of 2 (Creatable.names_nodup x) rfl rfl)
    (forall_cons (fun x _ => .of 3 (Creatable.names_nodup x) rfl rfl)
    (forall_cons (fun x _ => .of 4 (Creatable.names_nodup x) rfl rfl)
    (forall_cons (fun x _ => .of 5 (Creatable.names_nodup x) rfl rfl)
    (forall_cons (fun x _ => .of 6 (Creatable.names_nodup x) rfl rfl)
    (forall_cons (fun x _ => .of 7 (Creatable.names_nodup x) rfl rfl)
    (forall_cons (fun x _ => .of 8 (Creatable.names_nodup x) rfl rfl)
    (forall_cons (fun x _ => .of 9 (Creatable.names_nodup x) rfl rfl)
    (forall_cons (fun x _ => .of 10 (Creatable.names_nodup x) rfl rfl)
    (forall_cons (fun x _ => .of 11 (Creatable.names_nodup x) rfl rfl)
    (forall_cons (fun x _ => .of 12 (Creatable.names_nodup x) rfl rfl)
    (forall_cons (fun x _ => .of 13 (Creatable.names_nodup x) rfl rfl)
    (forall_cons (fun x _ => .of 14 (Creatable.names_nodup x) rfl rfl)
    (forall_cons (fun x _ => .of 15 (Creatable.names_nodup x) rfl rfl)
    (forall_cons (fun x _ => .of 16 (Creatable.names_nodup x) rfl rfl)
    (forall_cons (fun x _ => .of 17 (Creatable.names_nodup x) rfl rfl)
    (forall_cons (fun x _ => .of 18 (Creatable.names_nodup x) rfl rfl)
    (forall_cons (fun x _ => .of 19 (Creatable.names_nodup x) rfl rfl)
    (forall_cons (fun x _ => .of 20 (Creatable.names_nodup x) rfl rfl)
    (forall_cons (fun x _ => .of 21 (Creatable.names_nodup x) rfl rfl)
    (forall_cons (fun x _ => .of 22 (Creatable.names_nodup x) rfl rfl)
    (forall_cons (fun x _ => .of 23 (Creatable.names_nodup x) rfl rfl)
    (forall_cons (fun x _ => .of 24 (Creatable.names_nodup x) rfl rfl)
    (forall_cons (fun x _ => .of 25 (Creatable.names_nodup x) rfl rfl)
    (forall_cons (fun x _ => .of 26 (Creatable.names_nodup x) rfl rfl)
    (forall_cons (fun x _ => .of 27 (Creatable.names_nodup x) rfl rfl)
    (forall_cons (fun x _ => .of 28 (Creatable.names_nodup x) rfl rfl)
    (forall_cons (fun x _ => .of 29 (Creatable.names_nodup x) rfl rfl)
    (forall_cons (fun x _ => .of 30 (Creatable.names_nodup x) rfl rfl)
    (forall_cons (fun x _ => .of 31 (Creatable.names_nodup x) rfl rfl)
    (forall_cons (fun x _ => .of 32 (Creatable.names_nodup x) rfl rfl)
    (forall_nil)))))))))))))))))))))))))))))))))

theorem BuildingAnnex.attrs_shown : ∀ A ∈ Node.attrs (.record .BuildingAnnex), AttrShown _ A :=
  forall_cons (fun x _ => .of 0 (BuildingAnnex.names_nodup x) rfl rfl)
    (forall_cons (fun x _ => .of 1 (BuildingAnnex.names_nodup x) rfl rfl)
    (forall_cons (fun x _ => .of 2 (BuildingAnnex.names_nodup x) rfl rfl)
    (forall_nil)))

theorem Building.attrs_shown : ∀ A ∈ Node.attrs (.record .Building), AttrShown _ A :=
  forall_cons (fun x _ => .of 0 (Building.names_nodup x) rfl rfl)
    (forall_cons (fun x _ => .of 1 (Building.names_nodup x) rfl rfl)
    (forall_cons (fun x _ => .of 2 (Building.names_nodup x) rfl rfl)
    (forall_cons (fun x _ => .of 3 (Building.names_nodup x) rfl rfl)
    (forall_cons (fun x _ => .of 4 (Building.names_nodup x) rfl rfl)
    (forall_cons (fun x _ => .of 5 (Building.names_nodup x) rfl rfl)
    (forall_cons (fun x _ => .of 6 (Building.names_nodup x) rfl rfl)
    (forall_cons (fun x _ => .of 7 (Building.names_nodup x) rfl rfl)
    (forall_cons (fun x _ => .of 8 (Building.names_nodup x) rfl rfl)
    (forall_cons (fun x _ => .of 9 (Building.names_nodup x) rfl rfl)
    (forall_cons (fun x _ => .of 10 (Building.names_nodup x) rfl rfl)
    (forall_cons (fun x _ => .of 11 (Building.names_nodup x) rfl rfl)
    (forall_cons (fun x _ => .of 12 (Building.names_nodup x) rfl rfl)
    (forall_cons (fun x _ => .of 13 (Building.names_nodup x) rfl rfl)
    (forall_cons (fun x _ => .of 14 (Building.names_nodup x) rfl rfl)
    (forall_cons (fun x _ => .of 15 (Building.names_nodup x) rfl rfl)
    (forall_cons (fun x _ => .of 16 (Building.names_nodup x) rfl rfl)
    (forall_cons (fun x _ => .of 17 (Building.names_nodup x) rfl rfl)
    (forall_cons (fun x _ => .of 18 (Building.names_nodup x) rfl rfl)
    (forall_cons (fun x _ => .of 19 (Building.names_nodup x) rfl rfl)
    (forall_cons (fun x _ => .of 20 (Building.names_nodup x) rfl rfl)
    (forall_cons (fun x _ => .of 21 (Building.names_nodup x) rfl rfl)
    (forall_cons (fun x _ => .of 22 (Building.names_nodup x) rfl rfl)
    (forall_cons (fun x _ => .of 23 (Building.names_nodup x) rfl rfl)
    (forall_cons (fun x _ => .of 24 (Building.names_nodup x) rfl rfl)
    (forall_cons (fun x _ => .of 25 (Building.names_nodup x) rfl rfl)
    (forall_nil))))))))))))))))))))))))))

theorem Unit.attrs_shown : ∀ A ∈ Node.attrs (.record .Unit), AttrShown _ A :=
  forall_cons (fun x _ => .of 0 (Unit.names_nodup x) rfl rfl)
    (forall_cons (fun x _ => .of 1 (Unit.names_nodup x) rfl rfl)
    (forall_cons (fun x _ => .of 2 (Unit.names_nodup x) rfl rfl)
    (forall_cons (fun x _ => .of 3 (Unit.names_nodup x) rfl rfl)
    (forall_cons (fun x _ => .of 4 (Unit.names_nodup x) rfl rfl)
    (forall_cons (fun x _ => .of 5 (Unit.names_nodup x) rfl rfl)
    (forall_cons (fun x _ => .of 6 (Unit.names_nodup x) rfl rfl)
    (forall_cons (fun x _ => .of 7 (Unit.names_nodup x) rfl rfl)
    (forall_cons (fun x _ => .of 8 (Unit.names_nodup x) rfl rfl)
    (forall_cons (fun x _ => .of 9 (Unit.names_nodup x) rfl rfl)
    (forall_cons (fun x _ => .of 10 (Unit.names_nodup x) rfl rfl)
    (forall_cons (fun x _ => .of 11 (Unit.names_nodup x) rfl rfl)
    (forall_cons (fun x _ => .of 12 (Unit.names_nodup x) rfl rfl)
    (forall_cons (fun x _ => .of 13 (Unit.names_nodup x) rfl rfl)
    (forall_cons (fun x _ => .of 14 (Unit.names_nodup x) rfl rfl)
    (forall_cons (fun x _ => .of 15 (Unit.names_nodup x) rfl rfl)
    (forall_cons (fun x _ => .of 16 (Unit.names_nodup x) rfl rfl)
    (forall_cons (fun x _ => .of 17 (Unit.names_nodup x) rfl rfl)
    (forall_cons (fun x _ => .of 18 (Unit.names_nodup x) rfl rfl)
    (forall_cons (fun x _ => .of 19 (Unit.names_nodup x) rfl rfl)
    (forall_cons (fun x _ => .of 20 (Unit.names_nodup x) rfl rfl)
    (forall_cons (fun x _ => .of 21 (Unit.names_nodup x) rfl rfl)
    (forall_cons (fun x _ => .of 22 (Unit.names_nodup x) rfl rfl)
    (forall_cons (fun x _ => .of 23 (Unit.names_nodup x) rfl rfl)
    (forall_cons (fun x _ => .of 24 (Unit.names_nodup x) rfl rfl)
    (forall_cons (fun x _ => .of 25 (Unit.names_nodup x) rfl rfl)
    (forall_cons (fun x _ => .of 26 (Unit.names_nodup x) rfl rfl)
    (forall_cons (fun x _ => .of 27 (Unit.names_nodup x) rfl rfl)
    (forall_cons (fun x _ => .of 28 (Unit.names_nodup x) rfl rfl)
    (forall_cons (fun x _ => .of 29 (Unit.names_nodup x) rfl rfl)
    (forall_cons (fun x _ => .of 30 (Unit.names_nodup x) rfl rfl)
    (forall_cons (fun x _ => .of 31 (Unit.names_nodup x) rfl rfl)
    (forall_cons (fun x _ => .of 32 (Unit.names_nodup x) rfl rfl)
    (forall_cons (fun x _ => .of 33 (Unit.names_nodup x) rfl rfl)
    (forall_cons (fun x _ => .of 34 (Unit.names_nodup x) rfl rfl)
    (forall_cons (fun x _ => .of 35 (Unit.names_nodup x) rfl rfl)
    (forall_cons (fun x _ => .of 36 (Unit.names_nodup x) rfl rfl)
    (forall_cons (fun x _ => .of 37 (Unit.names_nodup x) rfl rfl)
    (forall_cons (fun x _ => .of 38 (Unit.names_nodup x) rfl rfl)
    (forall_cons (fun x _ => .of 39 (Unit.names_nodup x) rfl rfl)
    (forall_cons (fun x _ => .of 40 (Unit.names_nodup x) rfl rfl)
    (forall_cons (fun x _ => .of 41 (Unit.names_nodup x) rfl rfl)
    (forall_cons (fun x _ => .of 42 (Unit.names_nodup x) rfl rfl)
    (forall_cons (fun x _ => .of 43 (Unit.names_nodup x) rfl rfl)
    (forall_cons (fun x _ => .of 44 (Unit.names_nodup x) rfl rfl)
    (forall_cons (fun x _ => .of 45 (Unit.names_nodup x) rfl rfl)
    (forall_cons (fun x _ => .of 46 (Unit.names_nodup x) rfl rfl)
    (forall_cons (fun x _ => .of 47 (Unit.names_nodup x) rfl rfl)
    (forall_cons (fun x _ => .of 48 (Unit.names_nodup x) rfl rfl)
    (forall_cons (fun x _ => .of 49 (Unit.names_nodup x) rfl rfl)
    (forall_cons (fun x _ => .of 50 (Unit.names_nodup x) rfl rfl)
    (forall_cons (fun x _ => .of 51 (Unit.names_nodup x) rfl rfl)
    (forall_cons (fun x _ => .of 52 (Unit.names_nodup x) rfl rfl)
    (forall_cons (fun x _ => .of 53 (Unit.names_nodup x) rfl rfl)
    (forall_cons (fun x _ => .of 54 (Unit.names_nodup x) rfl rfl)
    (forall_cons (fun x _ => .of 55 (Unit.names_nodup x) rfl rfl)
    (forall_cons (fun x _ => .of 56 (Unit.names_nodup x) rfl rfl)
    (forall_cons (fun x _ => .of 57 (Unit.names_nodup x) rfl rfl)
    (forall_cons (fun x _ => .of 58 (Unit.names_nodup x) rfl rfl)
    (forall_cons (fun x _ => .of 59 (Unit.names_nodup x) rfl rfl)
    (forall_cons (fun x _ => .of 60 (Unit.names_nodup x) rfl rfl)
    (forall_cons (fun x _ => .of 61 (Unit.names_nodup x) rfl rfl)
    (forall_cons (fun x _ => .of 62 (Unit.names_nodup x) rfl rfl)
    (forall_cons (fun x _ => .of 63 (Unit.names_nodup x) rfl rfl)
    (forall_cons (fun x _ => .of 64 (Unit.names_nodup x) rfl rfl)
    (forall_cons (fun x _ => .of 65 (Unit.names_nodup x) rfl rfl)
    (forall_cons (fun x _ => .of 66 (Unit.names_nodup x) rfl rfl)
    (forall_cons (fun x _ => .of 67 (Unit.names_nodup x) rfl rfl)
    (forall_cons (fun x _ => .of 68 (Unit.names_nodup x) rfl rfl)
    (forall_cons (fun x _ => .of 69 (Unit.names_nodup x) rfl rfl)
    (forall_cons (fun x _ => .of 70 (Unit.names_nodup x) rfl rfl)
    (forall_cons (fun x _ => .of 71 (Unit.names_nodup x) rfl rfl)
    (forall_cons (fun x _ => .of 72 (Unit.names_nodup x) rfl rfl)
    (forall_cons (fun x _ => .of 73 (Unit.names_nodup x) rfl rfl)
    (forall_cons (fun x _ => .of 74 (Unit.names_nodup x) rfl rfl)
    (forall_cons (fun x _ => .of 75 (Unit.names_nodup x) rfl rfl)
    (forall_cons (fun x _ => .of 76 (Unit.names_nodup x) rfl rfl)
    (forall_cons (fun x _ => .of 77 (Unit.names_nodup x) rfl rfl)
    (forall_cons (fun x _ => .of 78 (Unit.names_nodup x) rfl rfl)
    (forall_cons (fun x _ => .of 79 (Unit.names_nodup x) rfl rfl)
    (forall_cons (fun x _ => .of 80 (Unit.names_nodup x) rfl rfl)
    (forall_cons (fun x _ => .of 81 (Unit.names_nodup x) rfl rfl)
    (forall_nil))))))))))))))))))))))))))))))))))))))))))))))))))))))))))))))))))))))))))))))))))

theorem UnitHeaders.attrs_shown : ∀ A ∈ Node.attrs (.record .UnitHeaders), AttrShown _ A :=
  forall_cons (fun x _ => .of 0 (UnitHeaders.names_nodup x) rfl rfl)
    (forall_cons (fun x _ => .of 1 (UnitHeaders.names_nodup x) rfl rfl)
    (forall_nil))

theorem Civ.attrs_shown : ∀ A ∈ Node.attrs (.record .Civ), AttrShown _ A :=
  forall_cons (fun x _ => .of 0 (Civ.names_nodup x) rfl rfl)
    (forall_cons (fun x _ => .of 1 (Civ.names_nodup x) rfl rfl)
    (forall_cons (fun x _ => .of 2 (Civ.names_nodup x) rfl rfl)
    (forall_cons (fun x _ => .of 3 (Civ.names_nodup x) rfl rfl)
    (forall_cons (fun x _ => .of 4 (Civ.names_nodup x) rfl rfl)
    (forall_cons (fun x _ => .of 5 (Civ.names_nodup x) rfl rfl)
    (forall_cons (fun x _ => .of 6 (Civ.names_nodup x) rfl rfl)
    (forall_nil)))))))

theorem DatFile.attrs_shown : ∀ A ∈ Node.attrs (.file), AttrShown _ A :=
  forall_cons (fun x _ => .of 0 (DatFile.names_nodup x) rfl rfl)
    (forall_cons (fun x _ => .of 1 (DatFile.names_nodup x) rfl rfl)
    (forall_cons (fun x _ => .of 2 (DatFile.names_nodup x) rfl rfl)
    (forall_cons (fun x _ => .of 3 (DatFile.names_nodup x) rfl rfl)
    (forall_cons (fun x _ => .of 4 (DatFile.names_nodup x) rfl rfl)
    (forall_cons (fun x _ => .of 5 (DatFile.names_nodup x) rfl rfl)
    (forall_cons (fun x _ => .of 6 (DatFile.names_nodup x) rfl rfl)
    (forall_cons (fun x _ => .of 7 (DatFile.names_nodup x) rfl rfl)
    (forall_cons (fun x _ => .of 8 (DatFile.names_nodup x) rfl rfl)
    (forall_cons (fun x _ => .of 9 (DatFile.names_nodup x) rfl rfl)
    (forall_cons (fun x _ => .of 10 (DatFile.names_nodup x) rfl rfl)
    (forall_cons (fun x _ => .of 11 (DatFile.names_nodup x) rfl rfl)
    (forall_cons (fun x _ => .of 12 (DatFile.names_nodup x) rfl rfl)
    (forall_cons (fun x _ => .of 13 (DatFile.names_nodup x) rfl rfl)
    (forall_cons (fun x _ => .of 14 (DatFile.names_nodup x) rfl rfl)
    (forall_cons (fun x _ => .of 15 (DatFile.names_nodup x) rfl rfl)
    (forall_cons (fun x _ => .of 16 (DatFile.names_nodup x) rfl rfl)
    (forall_cons (fun x _ => .of 17 (DatFile.names_nodup x) rfl rfl)
    (forall_cons (fun x _ => .of 18 (DatFile.names_nodup x) rfl rfl)
    (forall_cons (fun x _ => .of 19 (DatFile.names_nodup x) rfl rfl)
    (forall_cons (fun x _ => .of 20 (DatFile.names_nodup x) rfl rfl)
    (forall_nil)))))))))))))))))))))

theorem Node.attrs_shown (n : Node) : ∀ A ∈ n.attrs, AttrShown n A := by
  match n with
  | .record .EffectCommand => exact EffectCommand.attrs_shown
  | .record .Effect => exact Effect.attrs_shown
  | .record .SoundItem => exact SoundItem.attrs_shown
  | .record .Sound => exact Sound.attrs_shown
  | .record .PlayerColour => exact PlayerColour.attrs_shown
  | .record .GraphicDelta => exact GraphicDelta.attrs_shown
  | .record .GraphicAngleSound => exact GraphicAngleSound.attrs_shown
  | .record .Graphic => exact Graphic.attrs_shown
  | .record .TerrainPassGraphic => exact TerrainPassGraphic.attrs_shown
  | .record (.TerrainRestriction n) => exact TerrainRestriction.attrs_shown n
  | .record .FrameData => exact FrameData.attrs_shown
  | .record .Terrain => exact Terrain.attrs_shown
  | .record .TileSize => exact TileSize.attrs_shown
  | .record .TerrainBlock => exact TerrainBlock.attrs_shown
  | .record .MapUnit => exact MapUnit.attrs_shown
  | .record .MapTerrain => exact MapTerrain.attrs_shown
  | .record .MapLand => exact MapLand.attrs_shown
  | .record .MapElevation => exact MapElevation.attrs_shown
  | .record .MapInfo => exact MapInfo.attrs_shown
  | .record .RandomMaps => exact RandomMaps.attrs_shown
  | .record .ResearchResourceCost => exact ResearchResourceCost.attrs_shown
  | .record .ResearchLocation => exact ResearchLocation.attrs_shown
  | .record .Tech => exact Tech.attrs_shown
  | .record .Common => exact Common.attrs_shown
  | .record .TechTreeAge => exact TechTreeAge.attrs_shown
  | .record .BuildingConnection => exact BuildingConnection.attrs_shown
  | .record .UnitConnection => exact UnitConnection.attrs_shown
  | .record .ResearchConnection => exact ResearchConnection.attrs_shown
  | .record .TechTree => exact TechTree.attrs_shown
  | .record .Task => exact Task.attrs_shown
  | .record .ResourceStorage => exact ResourceStorage.attrs_shown
  | .record .DamageGraphic => exact DamageGraphic.attrs_shown
  | .record .DeadFish => exact DeadFish.attrs_shown
  | .record .Bird => exact Bird.attrs_shown
  | .record .AttackOrArmor => exact AttackOrArmor.attrs_shown
  | .record .Type50 => exact Type50.attrs_shown
  | .record .Projectile => exact Projectile.attrs_shown
  | .record .ResourceCost => exact ResourceCost.attrs_shown
  | .record .TrainLocation => exact TrainLocation.attrs_shown
  | .record .Creatable => exact Creatable.attrs_shown
  | .record .BuildingAnnex => exact BuildingAnnex.attrs_shown
  | .record .Building => exact Building.attrs_shown
  | .record .Unit => exact Unit.attrs_shown
  | .record .UnitHeaders => exact UnitHeaders.attrs_shown
  | .record .Civ => exact Civ.attrs_shown
  | .file => exact DatFile.attrs_shown

theorem Effect.listAttrs_shown : ∀ A ∈ Node.listAttrs (.record .Effect), ListShown _ A :=
  forall_cons (fun x _ => .of 1 (Effect.names_nodup x) rfl rfl)
    (forall_nil)

theorem Sound.listAttrs_shown : ∀ A ∈ Node.listAttrs (.record .Sound), ListShown _ A :=
  forall_cons (fun x _ => .of 4 (Sound.names_nodup x) rfl rfl)
    (forall_nil)

theorem Graphic.listAttrs_shown : ∀ A ∈ Node.listAttrs (.record .Graphic), ListShown _ A :=
  forall_cons (fun x _ => .of 22 (Graphic.names_nodup x) rfl rfl)
    (forall_cons (fun x _ => .of 23 (Graphic.names_nodup x) rfl rfl)
    (forall_nil))

theorem TerrainRestriction.listAttrs_shown (n : Nat) : ∀ A ∈ Node.listAttrs (.record (.TerrainRestriction n)), ListShown _ A :=
  forall_cons (fun x _ => .of 0 (TerrainRestriction.names_nodup x) rfl rfl)
    (forall_cons (fun x _ => .of 1 (TerrainRestriction.names_nodup x) rfl rfl)
    (forall_nil))

theorem Terrain.listAttrs_shown : ∀ A ∈ Node.listAttrs (.record .Terrain), ListShown _ A :=
  forall_cons (fun x _ => .of 29 (Terrain.names_nodup x) rfl rfl)
    (forall_cons (fun x _ => .of 32 (Terrain.names_nodup x) rfl rfl)
    (forall_cons (fun x _ => .of 33 (Terrain.names_nodup x) rfl rfl)
    (forall_cons (fun x _ => .of 34 (Terrain.names_nodup x) rfl rfl)
    (forall_cons (fun x _ => .of 35 (Terrain.names_nodup x) rfl rfl)
    (forall_nil)))))

theorem TerrainBlock.listAttrs_shown : ∀ A ∈ Node.listAttrs (.record .TerrainBlock), ListShown _ A :=
  forall_cons (fun x _ => .of 6 (TerrainBlock.names_nodup x) rfl rfl)
    (forall_cons (fun x _ => .of 8 (TerrainBlock.names_nodup x) rfl rfl)
    (forall_nil))

theorem MapInfo.listAttrs_shown : ∀ A ∈ Node.listAttrs (.record .MapInfo), ListShown _ A :=
  forall_cons (fun x _ => .of 12 (MapInfo.names_nodup x) rfl rfl)
    (forall_cons (fun x _ => .of 15 (MapInfo.names_nodup x) rfl rfl)
    (forall_cons (fun x _ => .of 18 (MapInfo.names_nodup x) rfl rfl)
    (forall_cons (fun x _ => .of 21 (MapInfo.names_nodup x) rfl rfl)
    (forall_nil))))

theorem RandomMaps.listAttrs_shown : ∀ A ∈ Node.listAttrs (.record .RandomMaps), ListShown _ A :=
  forall_cons (fun x _ => .of 1 (RandomMaps.names_nodup x) rfl rfl)
    (forall_cons (fun x _ => .of 2 (RandomMaps.names_nodup x) rfl rfl)
    (forall_nil))

theorem Tech.listAttrs_shown : ∀ A ∈ Node.listAttrs (.record .Tech), ListShown _ A :=
  forall_cons (fun x _ => .of 14 (Tech.names_nodup x) rfl rfl)
    (forall_nil)

theorem TechTreeAge.listAttrs_shown : ∀ A ∈ Node.listAttrs (.record .TechTreeAge), ListShown _ A :=
  forall_cons (fun x _ => .of 2 (TechTreeAge.names_nodup x) rfl rfl)
    (forall_cons (fun x _ => .of 3 (TechTreeAge.names_nodup x) rfl rfl)
    (forall_cons (fun x _ => .of 4 (TechTreeAge.names_nodup x) rfl rfl)
    (forall_nil)))

theorem BuildingConnection.listAttrs_shown : ∀ A ∈ Node.listAttrs (.record .BuildingConnection), ListShown _ A :=
  forall_cons (fun x _ => .of 2 (BuildingConnection.names_nodup x) rfl rfl)
    (forall_cons (fun x _ => .of 3 (BuildingConnection.names_nodup x) rfl rfl)
    (forall_cons (fun x _ => .of 4 (BuildingConnection.names_nodup x) rfl rfl)
    (forall_nil)))

theorem UnitConnection.listAttrs_shown : ∀ A ∈ Node.listAttrs (.record .UnitConnection), ListShown _ A :=
  forall_cons (fun x _ => .of 5 (UnitConnection.names_nodup x) rfl rfl)
    (forall_nil)

theorem ResearchConnection.listAttrs_shown : ∀ A ∈ Node.listAttrs (.record .ResearchConnection), ListShown _ A :=
  forall_cons (fun x _ => .of 3 (ResearchConnection.names_nodup x) rfl rfl)
    (forall_cons (fun x _ => .of 4 (ResearchConnection.names_nodup x) rfl rfl)
    (forall_cons (fun x _ => .of 5 (ResearchConnection.names_nodup x) rfl rfl)
    (forall_nil)))

theorem TechTree.listAttrs_shown : ∀ A ∈ Node.listAttrs (.record .TechTree), ListShown _ A :=
  forall_cons (fun x _ => .of 1 (TechTree.names_nodup x) rfl rfl)
    (forall_cons (fun x _ => .of 2 (TechTree.names_nodup x) rfl rfl)
    (forall_cons (fun x _ => .of 3 (TechTree.names_nodup x) rfl rfl)
    (forall_cons (fun x _ => .of 4 (TechTree.names_nodup x) rfl rfl)
    (forall_nil))))

theorem Bird.listAttrs_shown : ∀ A ∈ Node.listAttrs (.record .Bird), ListShown _ A :=
  forall_cons (fun x _ => .of 3 (Bird.names_nodup x) rfl rfl)
    (forall_cons (fun x _ => .of 10 (Bird.names_nodup x) rfl rfl)
    (forall_nil))

theorem Type50.listAttrs_shown : ∀ A ∈ Node.listAttrs (.record .Type50), ListShown _ A :=
  forall_cons (fun x _ => .of 1 (Type50.names_nodup x) rfl rfl)
    (forall_cons (fun x _ => .of 2 (Type50.names_nodup x) rfl rfl)
    (forall_nil))

theorem Creatable.listAttrs_shown : ∀ A ∈ Node.listAttrs (.record .Creatable), ListShown _ A :=
  forall_cons (fun x _ => .of 1 (Creatable.names_nodup x) rfl rfl)
    (forall_nil)

theorem Unit.listAttrs_shown : ∀ A ∈ Node.listAttrs (.record .Unit), ListShown _ A :=
  forall_cons (fun x _ => .of 63 (Unit.names_nodup x) rfl rfl)
    (forall_nil)

theorem Civ.listAttrs_shown : ∀ A ∈ Node.listAttrs (.record .Civ), ListShown _ A :=
  forall_cons (fun x _ => .of 4 (Civ.names_nodup x) rfl rfl)
    (forall_cons (fun x _ => .of 6 (Civ.names_nodup x) rfl rfl)
    (forall_nil))

theorem DatFile.listAttrs_shown : ∀ A ∈ Node.listAttrs (.file), ListShown _ A :=
  forall_cons (fun x _ => .of 1 (DatFile.names_nodup x) rfl rfl)
    (forall_cons (fun x _ => .of 2 (DatFile.names_nodup x) rfl rfl)
    (forall_cons (fun x _ => .of 3 (DatFile.names_nodup x) rfl rfl)
    (forall_cons (fun x _ => .of 4 (DatFile.names_nodup x) rfl rfl)
    (forall_cons (fun x _ => .of 5 (DatFile.names_nodup x) rfl rfl)
    (forall_cons (fun x _ => .of 6 (DatFile.names_nodup x) rfl rfl)
    (forall_cons (fun x _ => .of 9 (DatFile.names_nodup x) rfl rfl)
    (forall_cons (fun x _ => .of 10 (DatFile.names_nodup x) rfl rfl)
    (forall_cons (fun x _ => .of 11 (DatFile.names_nodup x) rfl rfl)
    (forall_cons (fun x _ => .of 12 (DatFile.names_nodup x) rfl rfl)
    (forall_nil))))))))))

theorem Node.listAttrs_shown (n : Node) : ∀ A ∈ n.listAttrs, ListShown n A := by
  match n with
  | .record .EffectCommand => exact forall_nil
  | .record .Effect => exact Effect.listAttrs_shown
  | .record .SoundItem => exact forall_nil
  | .record .Sound => exact Sound.listAttrs_shown
  | .record .PlayerColour => exact forall_nil
  | .record .GraphicDelta => exact forall_nil
  | .record .GraphicAngleSound => exact forall_nil
  | .record .Graphic => exact Graphic.listAttrs_shown
  | .record .TerrainPassGraphic => exact forall_nil
  | .record (.TerrainRestriction n) => exact TerrainRestriction.listAttrs_shown n
  | .record .FrameData => exact forall_nil
  | .record .Terrain => exact Terrain.listAttrs_shown
  | .record .TileSize => exact forall_nil
  | .record .TerrainBlock => exact TerrainBlock.listAttrs_shown
  | .record .MapUnit => exact forall_nil
  | .record .MapTerrain => exact forall_nil
  | .record .MapLand => exact forall_nil
  | .record .MapElevation => exact forall_nil
  | .record .MapInfo => exact MapInfo.listAttrs_shown
  | .record .RandomMaps => exact RandomMaps.listAttrs_shown
  | .record .ResearchResourceCost => exact forall_nil
  | .record .ResearchLocation => exact forall_nil
  | .record .Tech => exact Tech.listAttrs_shown
  | .record .Common => exact forall_nil
  | .record .TechTreeAge => exact TechTreeAge.listAttrs_shown
  | .record .BuildingConnection => exact BuildingConnection.listAttrs_shown
  | .record .UnitConnection => exact UnitConnection.listAttrs_shown
  | .record .ResearchConnection => exact ResearchConnection.listAttrs_shown
  | .record .TechTree => exact TechTree.listAttrs_shown
  | .record .Task => exact forall_nil
  | .record .ResourceStorage => exact forall_nil
  | .record .DamageGraphic => exact forall_nil
  | .record .DeadFish => exact forall_nil
  | .record .Bird => exact Bird.listAttrs_shown
  | .record .AttackOrArmor => exact forall_nil
  | .record .Type50 => exact Type50.listAttrs_shown
  | .record .Projectile => exact forall_nil
  | .record .ResourceCost => exact forall_nil
  | .record .TrainLocation => exact forall_nil
  | .record .Creatable => exact Creatable.listAttrs_shown
  | .record .BuildingAnnex => exact forall_nil
  | .record .Building => exact forall_nil
  | .record .Unit => exact Unit.listAttrs_shown
  | .record .UnitHeaders => exact forall_nil
  | .record .Civ => exact Civ.listAttrs_shown
  | .file => exact DatFile.listAttrs_shown

theorem Node.object_attrs (n : Node) (x : n.Obj) :
    ∃ c, n.object x = .obj c (n.attrs.map fun A => (lit A.name, A.object (A.get x))) := by
  match n with
  | .record .EffectCommand => exact ⟨_, rfl⟩
  | .record .Effect => exact ⟨_, rfl⟩
  | .record .SoundItem => exact ⟨_, rfl⟩
  | .record .Sound => exact ⟨_, rfl⟩
  | .record .PlayerColour => exact ⟨_, rfl⟩
  | .record .GraphicDelta => exact ⟨_, rfl⟩
  | .record .GraphicAngleSound => exact ⟨_, rfl⟩
  | .record .Graphic => exact ⟨_, rfl⟩
  | .record .TerrainPassGraphic => exact ⟨_, rfl⟩
  | .record (.TerrainRestriction _) => exact ⟨_, rfl⟩
  | .record .FrameData => exact ⟨_, rfl⟩
  | .record .Terrain => exact ⟨_, rfl⟩
  | .record .TileSize => exact ⟨_, rfl⟩
  | .record .TerrainBlock => exact ⟨_, rfl⟩
  | .record .MapUnit => exact ⟨_, rfl⟩
  | .record .MapTerrain => exact ⟨_, rfl⟩
  | .record .MapLand => exact ⟨_, rfl⟩
  | .record .MapElevation => exact ⟨_, rfl⟩
  | .record .MapInfo => exact ⟨_, rfl⟩
  | .record .RandomMaps => exact ⟨_, rfl⟩
  | .record .ResearchResourceCost => exact ⟨_, rfl⟩
  | .record .ResearchLocation => exact ⟨_, rfl⟩
  | .record .Tech => exact ⟨_, rfl⟩
  | .record .Common => exact ⟨_, rfl⟩
  | .record .TechTreeAge => exact ⟨_, rfl⟩
  | .record .BuildingConnection => exact ⟨_, rfl⟩
  | .record .UnitConnection => exact ⟨_, rfl⟩
  | .record .ResearchConnection => exact ⟨_, rfl⟩
  | .record .TechTree => exact ⟨_, rfl⟩
  | .record .Task => exact ⟨_, rfl⟩
  | .record .ResourceStorage => exact ⟨_, rfl⟩
  | .record .DamageGraphic => exact ⟨_, rfl⟩
  | .record .DeadFish => exact ⟨_, rfl⟩
  | .record .Bird => exact ⟨_, rfl⟩
  | .record .AttackOrArmor => exact ⟨_, rfl⟩
  | .record .Type50 => exact ⟨_, rfl⟩
  | .record .Projectile => exact ⟨_, rfl⟩
  | .record .ResourceCost => exact ⟨_, rfl⟩
  | .record .TrainLocation => exact ⟨_, rfl⟩
  | .record .Creatable => exact ⟨_, rfl⟩
  | .record .BuildingAnnex => exact ⟨_, rfl⟩
  | .record .Building => exact ⟨_, rfl⟩
  | .record .Unit => exact ⟨_, rfl⟩
  | .record .UnitHeaders => exact ⟨_, rfl⟩
  | .record .Civ => exact ⟨_, rfl⟩
  | .file => exact ⟨_, rfl⟩

theorem Node.attrs_lists (n : Node) : ∀ A ∈ n.attrs, (∃ L ∈ n.listAttrs, L.name = A.name) ∨ (∀ w l, A.object w ≠ .list l) ∨
    (n = .record .UnitHeaders ∧ A.name = "task_list") := by
  match n with
  | .record .EffectCommand =>
    refine forall_cons (.inr (.inl fun w l h => (nomatch h))) ?_
    refine forall_cons (.inr (.inl fun w l h => (nomatch h))) ?_
    refine forall_cons (.inr (.inl fun w l h => (nomatch h))) ?_
    refine forall_cons (.inr (.inl fun w l h => (nomatch h))) ?_
    refine forall_cons (.inr (.inl fun w l h => (nomatch h))) ?_
    exact forall_nil
  | .record .Effect =>
    refine forall_cons (.inr (.inl fun w l h => (nomatch h))) ?_
    refine forall_cons (.inl ⟨_, .head _, rfl⟩) ?_
    exact forall_nil
  | .record .SoundItem =>
    refine forall_cons (.inr (.inl fun w l h => (nomatch h))) ?_
    refine forall_cons (.inr (.inl fun w l h => (nomatch h))) ?_
    refine forall_cons (.inr (.inl fun w l h => (nomatch h))) ?_
    refine forall_cons (.inr (.inl fun w l h => (nomatch h))) ?_
    refine forall_cons (.inr (.inl fun w l h => (nomatch h))) ?_
    exact forall_nil
  | .record .Sound =>
    refine forall_cons (.inr (.inl fun w l h => (nomatch h))) ?_
    refine forall_cons (.inr (.inl fun w l h => (nomatch h))) ?_
    refine forall_cons (.inr (.inl fun w l h => (nomatch h))) ?_
    refine forall_cons (.inr (.inl fun w l h => (nomatch h))) ?_
    refine forall_cons (.inl ⟨_, .head _, rfl⟩) ?_
    exact forall_nil
  | .record .PlayerColour =>
    refine forall_cons (.inr (.inl fun w l h => (nomatch h))) ?_
    refine forall_cons (.inr (.inl fun w l h => (nomatch h))) ?_
    refine forall_cons (.inr (.inl fun w l h => (nomatch h))) ?_
    refine forall_cons (.inr (.inl fun w l h => (nomatch h))) ?_
    refine forall_cons (.inr (.inl fun w l h => (nomatch h))) ?_
    refine forall_cons (.inr (.inl fun w l h => (nomatch h))) ?_
    refine forall_cons (.inr (.inl fun w l h => (nomatch h))) ?_
    refine forall_cons (.inr (.inl fun w l h => (nomatch h))) ?_
    refine forall_cons (.inr (.inl fun w l h => (nomatch h))) ?_
    exact forall_nil
  | .record .GraphicDelta =>
    refine forall_cons (.inr (.inl fun w l h => (nomatch h))) ?_
    refine forall_cons (.inr (.inl fun w l h => (nomatch h))) ?_
    refine forall_cons (.inr (.inl fun w l h => (nomatch h))) ?_
    refine forall_cons (.inr (.inl fun w l h => (nomatch h))) ?_
    refine forall_cons (.inr (.inl fun w l h => (nomatch h))) ?_
    refine forall_cons (.inr (.inl fun w l h => (nomatch h))) ?_
    refine forall_cons (.inr (.inl fun w l h => (nomatch h))) ?_
    exact forall_nil
  | .record .GraphicAngleSound =>
    refine forall_cons (.inr (.inl fun w l h => (nomatch h))) ?_
    refine forall_cons (.inr (.inl fun w l h => (nomatch h))) ?_
    refine forall_cons (.inr (.inl fun w l h => (nomatch h))) ?_
    refine forall_cons (.inr (.inl fun w l h => (nomatch h))) ?_
    refine forall_cons (.inr (.inl fun w l h => (nomatch h))) ?_
    refine forall_cons (.inr (.inl fun w l h => (nomatch h))) ?_
    refine forall_cons (.inr (.inl fun w l h => (nomatch h))) ?_
    refine forall_cons (.inr (.inl fun w l h => (nomatch h))) ?_
    refine forall_cons (.inr (.inl fun w l h => (nomatch h))) ?_
    exact forall_nil
  | .record .Graphic =>
    refine forall_cons (.inr (.inl fun w l h => (nomatch h))) ?_
    refine forall_cons (.inr (.inl fun w l h => (nomatch h))) ?_
    refine forall_cons (.inr (.inl fun w l h => (nomatch h))) ?_
    refine forall_cons (.inr (.inl fun w l h => (nomatch h))) ?_
    refine forall_cons (.inr (.inl fun w l h => (nomatch h))) ?_
    refine forall_cons (.inr (.inl fun w l h => (nomatch h))) ?_
    refine forall_cons (.inr (.inl fun w l h => (nomatch h))) ?_
    refine forall_cons (.inr (.inl fun w l h => (nomatch h))) ?_
    refine forall_cons (.inr (.inl fun w l h => (nomatch h))) ?_
    refine forall_cons (.inr (.inl fun w l h => (nomatch h))) ?_
    refine forall_cons (.inr (.inl fun w l h => (nomatch h))) ?_
    refine forall_cons (.inr (.inl fun w l h => (nomatch h))) ?_
    refine forall_cons (.inr (.inl fun w l h => (nomatch h))) ?_
    refine forall_cons (.inr (.inl fun w l h => (nomatch h))) ?_
    refine forall_cons (.inr (.inl fun w l h => (nomatch h))) ?_
    refine forall_cons (.inr (.inl fun w l h => (nomatch h))) ?_
    refine forall_cons (.inr (.inl fun w l h => (nomatch h))) ?_
    refine forall_cons (.inr (.inl fun w l h => (nomatch h))) ?_
    refine forall_cons (.inr (.inl fun w l h => (nomatch h))) ?_
    refine forall_cons (.inr (.inl fun w l h => (nomatch h))) ?_
    refine forall_cons (.inr (.inl fun w l h => (nomatch h))) ?_
    refine forall_cons (.inr (.inl fun w l h => (nomatch h))) ?_
    refine forall_cons (.inl ⟨_, .head _, rfl⟩) ?_
    refine forall_cons (.inl ⟨_, .tail _ (.head _), rfl⟩) ?_
    exact forall_nil
  | .record .TerrainPassGraphic =>
    refine forall_cons (.inr (.inl fun w l h => (nomatch h))) ?_
    refine forall_cons (.inr (.inl fun w l h => (nomatch h))) ?_
    refine forall_cons (.inr (.inl fun w l h => (nomatch h))) ?_
    refine forall_cons (.inr (.inl fun w l h => (nomatch h))) ?_
    exact forall_nil
  | .record (.TerrainRestriction n) =>
    refine forall_cons (.inl ⟨_, .head _, rfl⟩) ?_
    refine forall_cons (.inl ⟨_, .tail _ (.head _), rfl⟩) ?_
    exact forall_nil
  | .record .FrameData =>
    refine forall_cons (.inr (.inl fun w l h => (nomatch h))) ?_
    refine forall_cons (.inr (.inl fun w l h => (nomatch h))) ?_
    refine forall_cons (.inr (.inl fun w l h => (nomatch h))) ?_
    exact forall_nil
  | .record .Terrain =>
    refine forall_cons (.inr (.inl fun w l h => (nomatch h))) ?_
    refine forall_cons (.inr (.inl fun w l h => (nomatch h))) ?_
    refine forall_cons (.inr (.inl fun w l h => (nomatch h))) ?_
    refine forall_cons (.inr (.inl fun w l h => (nomatch h))) ?_
    refine forall_cons (.inr (.inl fun w l h => (nomatch h))) ?_
    refine forall_cons (.inr (.inl fun w l h => (nomatch h))) ?_
    refine forall_cons (.inr (.inl fun w l h => (nomatch h))) ?_
    refine forall_cons (.inr (.inl fun w l h => (nomatch h))) ?_
    refine forall_cons (.inr (.inl fun w l h => (nomatch h))) ?_
    refine forall_cons (.inr (.inl fun w l h => (nomatch h))) ?_
    refine forall_cons (.inr (.inl fun w l h => (nomatch h))) ?_
    refine forall_cons (.inr (.inl fun w l h => (nomatch h))) ?_
    refine forall_cons (.inr (.inl fun w l h => (nomatch h))) ?_
    refine forall_cons (.inr (.inl fun w l h => (nomatch h))) ?_
    refine forall_cons (.inr (.inl fun w l h => (nomatch h))) ?_
    refine forall_cons (.inr (.inl fun w l h => (nomatch h))) ?_
    refine forall_cons (.inr (.inl fun w l h => (nomatch h))) ?_
    refine forall_cons (.inr (.inl fun w l h => (nomatch h))) ?_
    refine forall_cons (.inr (.inl fun w l h => (nomatch h))) ?_
    refine forall_cons (.inr (.inl fun w l h => (nomatch h))) ?_
    refine forall_cons (.inr (.inl fun w l h => (nomatch h))) ?_
    refine forall_cons (.inr (.inl fun w l h => (nomatch h))) ?_
    refine forall_cons (.inr (.inl fun w l h => (nomatch h))) ?_
    refine forall_cons (.inr (.inl fun w l h => (nomatch h))) ?_
    refine forall_cons (.inr (.inl fun w l h => (nomatch h))) ?_
    refine forall_cons (.inr (.inl fun w l h => (nomatch h))) ?_
    refine forall_cons (.inr (.inl fun w l h => (nomatch h))) ?_
    refine forall_cons (.inr (.inl fun w l h => (nomatch h))) ?_
    refine forall_cons (.inr (.inl fun w l h => (nomatch h))) ?_
    refine forall_cons (.inl ⟨_, .head _, rfl⟩) ?_
    refine forall_cons (.inr (.inl fun w l h => (nomatch h))) ?_
    refine forall_cons (.inr (.inl fun w l h => (nomatch h))) ?_
    refine forall_cons (.inl ⟨_, .tail _ (.head _), rfl⟩) ?_
    refine forall_cons (.inl ⟨_, .tail _ (.tail _ (.head _)), rfl⟩) ?_
    refine forall_cons (.inl ⟨_, .tail _ (.tail _ (.tail _ (.head _))), rfl⟩) ?_
    refine forall_cons (.inl ⟨_, .tail _ (.tail _ (.tail _ (.tail _ (.head _)))), rfl⟩) ?_
    refine forall_cons (.inr (.inl fun w l h => (nomatch h))) ?_
    refine forall_cons (.inr (.inl fun w l h => (nomatch h))) ?_
    exact forall_nil
  | .record .TileSize =>
    refine forall_cons (.inr (.inl fun w l h => (nomatch h))) ?_
    refine forall_cons (.inr (.inl fun w l h => (nomatch h))) ?_
    refine forall_cons (.inr (.inl fun w l h => (nomatch h))) ?_
    exact forall_nil
  | .record .TerrainBlock =>
    refine forall_cons (.inr (.inl fun w l h => (nomatch h))) ?_
    refine forall_cons (.inr (.inl fun w l h => (nomatch h))) ?_
    refine forall_cons (.inr (.inl fun w l h => (nomatch h))) ?_
    refine forall_cons (.inr (.inl fun w l h => (nomatch h))) ?_
    refine forall_cons (.inr (.inl fun w l h => (nomatch h))) ?_
    refine forall_cons (.inr (.inl fun w l h => (nomatch h))) ?_
    refine forall_cons (.inl ⟨_, .head _, rfl⟩) ?_
    refine forall_cons (.inr (.inl fun w l h => (nomatch h))) ?_
    refine forall_cons (.inl ⟨_, .tail _ (.head _), rfl⟩) ?_
    refine forall_cons (.inr (.inl fun w l h => (nomatch h))) ?_
    refine forall_cons (.inr (.inl fun w l h => (nomatch h))) ?_
    refine forall_cons (.inr (.inl fun w l h => (nomatch h))) ?_
    refine forall_cons (.inr (.inl fun w l h => (nomatch h))) ?_
    refine forall_cons (.inr (.inl fun w l h => (nomatch h))) ?_
    refine forall_cons (.inr (.inl fun w l h => (nomatch h))) ?_
    refine forall_cons (.inr (.inl fun w l h => (nomatch h))) ?_
    refine forall_cons (.inr (.inl fun w l h => (nomatch h))) ?_
    refine forall_cons (.inr (.inl fun w l h => (nomatch h))) ?_
    refine forall_cons (.inr (.inl fun w l h => (nomatch h))) ?_
    refine forall_cons (.inr (.inl fun w l h => (nomatch h))) ?_
    refine forall_cons (.inr (.inl fun w l h => (nomatch h))) ?_
    refine forall_cons (.inr (.inl fun w l h => (nomatch h))) ?_
    refine forall_cons (.inr (.inl fun w l h => (nomatch h))) ?_
    refine forall_cons (.inr (.inl fun w l h => (nomatch h))) ?_
    refine forall_cons (.inr (.inl fun w l h => (nomatch h))) ?_
    refine forall_cons (.inr (.inl fun w l h => (nomatch h))) ?_
    refine forall_cons (.inr (.inl fun w l h => (nomatch h))) ?_
    refine forall_cons (.inr (.inl fun w l h => (nomatch h))) ?_
    refine forall_cons (.inr (.inl fun w l h => (nomatch h))) ?_
    refine forall_cons (.inr (.inl fun w l h => (nomatch h))) ?_
    refine forall_cons (.inr (.inl fun w l h => (nomatch h))) ?_
    refine forall_cons (.inr (.inl fun w l h => (nomatch h))) ?_
    refine forall_cons (.inr (.inl fun w l h => (nomatch h))) ?_
    refine forall_cons (.inr (.inl fun w l h => (nomatch h))) ?_
    exact forall_nil
  | .record .MapUnit =>
    refine forall_cons (.inr (.inl fun w l h => (nomatch h))) ?_
    refine forall_cons (.inr (.inl fun w l h => (nomatch h))) ?_
    refine forall_cons (.inr (.inl fun w l h => (nomatch h))) ?_
    refine forall_cons (.inr (.inl fun w l h => (nomatch h))) ?_
    refine forall_cons (.inr (.inl fun w l h => (nomatch h))) ?_
    refine forall_cons (.inr (.inl fun w l h => (nomatch h))) ?_
    refine forall_cons (.inr (.inl fun w l h => (nomatch h))) ?_
    refine forall_cons (.inr (.inl fun w l h => (nomatch h))) ?_
    refine forall_cons (.inr (.inl fun w l h => (nomatch h))) ?_
    refine forall_cons (.inr (.inl fun w l h => (nomatch h))) ?_
    refine forall_cons (.inr (.inl fun w l h => (nomatch h))) ?_
    refine forall_cons (.inr (.inl fun w l h => (nomatch h))) ?_
    refine forall_cons (.inr (.inl fun w l h => (nomatch h))) ?_
    exact forall_nil
  | .record .MapTerrain =>
    refine forall_cons (.inr (.inl fun w l h => (nomatch h))) ?_
    refine forall_cons (.inr (.inl fun w l h => (nomatch h))) ?_
    refine forall_cons (.inr (.inl fun w l h => (nomatch h))) ?_
    refine forall_cons (.inr (.inl fun w l h => (nomatch h))) ?_
    refine forall_cons (.inr (.inl fun w l h => (nomatch h))) ?_
    refine forall_cons (.inr (.inl fun w l h => (nomatch h))) ?_
    exact forall_nil
  | .record .MapLand =>
    refine forall_cons (.inr (.inl fun w l h => (nomatch h))) ?_
    refine forall_cons (.inr (.inl fun w l h => (nomatch h))) ?_
    refine forall_cons (.inr (.inl fun w l h => (nomatch h))) ?_
    refine forall_cons (.inr (.inl fun w l h => (nomatch h))) ?_
    refine forall_cons (.inr (.inl fun w l h => (nomatch h))) ?_
    refine forall_cons (.inr (.inl fun w l h => (nomatch h))) ?_
    refine forall_cons (.inr (.inl fun w l h => (nomatch h))) ?_
    refine forall_cons (.inr (.inl fun w l h => (nomatch h))) ?_
    refine forall_cons (.inr (.inl fun w l h => (nomatch h))) ?_
    refine forall_cons (.inr (.inl fun w l h => (nomatch h))) ?_
    refine forall_cons (.inr (.inl fun w l h => (nomatch h))) ?_
    refine forall_cons (.inr (.inl fun w l h => (nomatch h))) ?_
    refine forall_cons (.inr (.inl fun w l h => (nomatch h))) ?_
    refine forall_cons (.inr (.inl fun w l h => (nomatch h))) ?_
    refine forall_cons (.inr (.inl fun w l h => (nomatch h))) ?_
    exact forall_nil
  | .record .MapElevation =>
    refine forall_cons (.inr (.inl fun w l h => (nomatch h))) ?_
    refine forall_cons (.inr (.inl fun w l h => (nomatch h))) ?_
    refine forall_cons (.inr (.inl fun w l h => (nomatch h))) ?_
    refine forall_cons (.inr (.inl fun w l h => (nomatch h))) ?_
    refine forall_cons (.inr (.inl fun w l h => (nomatch h))) ?_
    refine forall_cons (.inr (.inl fun w l h => (nomatch h))) ?_
    exact forall_nil
  | .record .MapInfo =>
    refine forall_cons (.inr (.inl fun w l h => (nomatch h))) ?_
    refine forall_cons (.inr (.inl fun w l h => (nomatch h))) ?_
    refine forall_cons (.inr (.inl fun w l h => (nomatch h))) ?_
    refine forall_cons (.inr (.inl fun w l h => (nomatch h))) ?_
    refine forall_cons (.inr (.inl fun w l h => (nomatch h))) ?_
    refine forall_cons (.inr (.inl fun w l h => (nomatch h))) ?_
    refine forall_cons (.inr (.inl fun w l h => (nomatch h))) ?_
    refine forall_cons (.inr (.inl fun w l h => (nomatch h))) ?_
    refine forall_cons (.inr (.inl fun w l h => (nomatch h))) ?_
    refine forall_cons (.inr (.inl fun w l h => (nomatch h))) ?_
    refine forall_cons (.inr (.inl fun w l h => (nomatch h))) ?_
    refine forall_cons (.inr (.inl fun w l h => (nomatch h))) ?_
    refine forall_cons (.inl ⟨_, .head _, rfl⟩) ?_
    refine forall_cons (.inr (.inl fun w l h => (nomatch h))) ?_
    refine forall_cons (.inr (.inl fun w l h => (nomatch h))) ?_
    refine forall_cons (.inl ⟨_, .tail _ (.head _), rfl⟩) ?_
    refine forall_cons (.inr (.inl fun w l h => (nomatch h))) ?_
    refine forall_cons (.inr (.inl fun w l h => (nomatch h))) ?_
    refine forall_cons (.inl ⟨_, .tail _ (.tail _ (.head _)), rfl⟩) ?_
    refine forall_cons (.inr (.inl fun w l h => (nomatch h))) ?_
    refine forall_cons (.inr (.inl fun w l h => (nomatch h))) ?_
    refine forall_cons (.inl ⟨_, .tail _ (.tail _ (.tail _ (.head _))), rfl⟩) ?_
    exact forall_nil
  | .record .RandomMaps =>
    refine forall_cons (.inr (.inl fun w l h => (nomatch h))) ?_
    refine forall_cons (.inl ⟨_, .head _, rfl⟩) ?_
    refine forall_cons (.inl ⟨_, .tail _ (.head _), rfl⟩) ?_
    exact forall_nil
  | .record .ResearchResourceCost =>
    refine forall_cons (.inr (.inl fun w l h => (nomatch h))) ?_
    refine forall_cons (.inr (.inl fun w l h => (nomatch h))) ?_
    refine forall_cons (.inr (.inl fun w l h => (nomatch h))) ?_
    exact forall_nil
  | .record .ResearchLocation =>
    refine forall_cons (.inr (.inl fun w l h => (nomatch h))) ?_
    refine forall_cons (.inr (.inl fun w l h => (nomatch h))) ?_
    refine forall_cons (.inr (.inl fun w l h => (nomatch h))) ?_
    refine forall_cons (.inr (.inl fun w l h => (nomatch h))) ?_
    exact forall_nil
  | .record .Tech =>
    refine forall_cons (.inr (.inl fun w l h => (nomatch h))) ?_
    refine forall_cons (.inr (.inl fun w l h => (nomatch h))) ?_
    refine forall_cons (.inr (.inl fun w l h => (nomatch h))) ?_
    refine forall_cons (.inr (.inl fun w l h => (nomatch h))) ?_
    refine forall_cons (.inr (.inl fun w l h => (nomatch h))) ?_
    refine forall_cons (.inr (.inl fun w l h => (nomatch h))) ?_
    refine forall_cons (.inr (.inl fun w l h => (nomatch h))) ?_
    refine forall_cons (.inr (.inl fun w l h => (nomatch h))) ?_
    refine forall_cons (.inr (.inl fun w l h => (nomatch h))) ?_
    refine forall_cons (.inr (.inl fun w l h => (nomatch h))) ?_
    refine forall_cons (.inr (.inl fun w l h => (nomatch h))) ?_
    refine forall_cons (.inr (.inl fun w l h => (nomatch h))) ?_
    refine forall_cons (.inr (.inl fun w l h => (nomatch h))) ?_
    refine forall_cons (.inr (.inl fun w l h => (nomatch h))) ?_
    refine forall_cons (.inl ⟨_, .head _, rfl⟩) ?_
    exact forall_nil
  | .record .Common =>
    refine forall_cons (.inr (.inl fun w l h => (nomatch h))) ?_
    refine forall_cons (.inr (.inl fun w l h => (nomatch h))) ?_
    refine forall_cons (.inr (.inl fun w l h => (nomatch h))) ?_
    exact forall_nil
  | .record .TechTreeAge =>
    refine forall_cons (.inr (.inl fun w l h => (nomatch h))) ?_
    refine forall_cons (.inr (.inl fun w l h => (nomatch h))) ?_
    refine forall_cons (.inl ⟨_, .head _, rfl⟩) ?_
    refine forall_cons (.inl ⟨_, .tail _ (.head _), rfl⟩) ?_
    refine forall_cons (.inl ⟨_, .tail _ (.tail _ (.head _)), rfl⟩) ?_
    refine forall_cons (.inr (.inl fun w l h => (nomatch h))) ?_
    refine forall_cons (.inr (.inl fun w l h => (nomatch h))) ?_
    refine forall_cons (.inr (.inl fun w l h => (nomatch h))) ?_
    refine forall_cons (.inr (.inl fun w l h => (nomatch h))) ?_
    refine forall_cons (.inr (.inl fun w l h => (nomatch h))) ?_
    refine forall_cons (.inr (.inl fun w l h => (nomatch h))) ?_
    exact forall_nil
  | .record .BuildingConnection =>
    refine forall_cons (.inr (.inl fun w l h => (nomatch h))) ?_
    refine forall_cons (.inr (.inl fun w l h => (nomatch h))) ?_
    refine forall_cons (.inl ⟨_, .head _, rfl⟩) ?_
    refine forall_cons (.inl ⟨_, .tail _ (.head _), rfl⟩) ?_
    refine forall_cons (.inl ⟨_, .tail _ (.tail _ (.head _)), rfl⟩) ?_
    refine forall_cons (.inr (.inl fun w l h => (nomatch h))) ?_
    refine forall_cons (.inr (.inl fun w l h => (nomatch h))) ?_
    refine forall_cons (.inr (.inl fun w l h => (nomatch h))) ?_
    refine forall_cons (.inr (.inl fun w l h => (nomatch h))) ?_
    refine forall_cons (.inr (.inl fun w l h => (nomatch h))) ?_
    refine forall_cons (.inr (.inl fun w l h => (nomatch h))) ?_
    exact forall_nil
  | .record .UnitConnection =>
    refine forall_cons (.inr (.inl fun w l h => (nomatch h))) ?_
    refine forall_cons (.inr (.inl fun w l h => (nomatch h))) ?_
    refine forall_cons (.inr (.inl fun w l h => (nomatch h))) ?_
    refine forall_cons (.inr (.inl fun w l h => (nomatch h))) ?_
    refine forall_cons (.inr (.inl fun w l h => (nomatch h))) ?_
    refine forall_cons (.inl ⟨_, .head _, rfl⟩) ?_
    refine forall_cons (.inr (.inl fun w l h => (nomatch h))) ?_
    refine forall_cons (.inr (.inl fun w l h => (nomatch h))) ?_
    refine forall_cons (.inr (.inl fun w l h => (nomatch h))) ?_
    refine forall_cons (.inr (.inl fun w l h => (nomatch h))) ?_
    exact forall_nil
  | .record .ResearchConnection =>
    refine forall_cons (.inr (.inl fun w l h => (nomatch h))) ?_
    refine forall_cons (.inr (.inl fun w l h => (nomatch h))) ?_
    refine forall_cons (.inr (.inl fun w l h => (nomatch h))) ?_
    refine forall_cons (.inl ⟨_, .head _, rfl⟩) ?_
    refine forall_cons (.inl ⟨_, .tail _ (.head _), rfl⟩) ?_
    refine forall_cons (.inl ⟨_, .tail _ (.tail _ (.head _)), rfl⟩) ?_
    refine forall_cons (.inr (.inl fun w l h => (nomatch h))) ?_
    refine forall_cons (.inr (.inl fun w l h => (nomatch h))) ?_
    refine forall_cons (.inr (.inl fun w l h => (nomatch h))) ?_
    refine forall_cons (.inr (.inl fun w l h => (nomatch h))) ?_
    exact forall_nil
  | .record .TechTree =>
    refine forall_cons (.inr (.inl fun w l h => (nomatch h))) ?_
    refine forall_cons (.inl ⟨_, .head _, rfl⟩) ?_
    refine forall_cons (.inl ⟨_, .tail _ (.head _), rfl⟩) ?_
    refine forall_cons (.inl ⟨_, .tail _ (.tail _ (.head _)), rfl⟩) ?_
    refine forall_cons (.inl ⟨_, .tail _ (.tail _ (.tail _ (.head _))), rfl⟩) ?_
    exact forall_nil
  | .record .Task =>
    refine forall_cons (.inr (.inl fun w l h => (nomatch h))) ?_
    refine forall_cons (.inr (.inl fun w l h => (nomatch h))) ?_
    refine forall_cons (.inr (.inl fun w l h => (nomatch h))) ?_
    refine forall_cons (.inr (.inl fun w l h => (nomatch h))) ?_
    refine forall_cons (.inr (.inl fun w l h => (nomatch h))) ?_
    refine forall_cons (.inr (.inl fun w l h => (nomatch h))) ?_
    refine forall_cons (.inr (.inl fun w l h => (nomatch h))) ?_
    refine forall_cons (.inr (.inl fun w l h => (nomatch h))) ?_
    refine forall_cons (.inr (.inl fun w l h => (nomatch h))) ?_
    refine forall_cons (.inr (.inl fun w l h => (nomatch h))) ?_
    refine forall_cons (.inr (.inl fun w l h => (nomatch h))) ?_
    refine forall_cons (.inr (.inl fun w l h => (nomatch h))) ?_
    refine forall_cons (.inr (.inl fun w l h => (nomatch h))) ?_
    refine forall_cons (.inr (.inl fun w l h => (nomatch h))) ?_
    refine forall_cons (.inr (.inl fun w l h => (nomatch h))) ?_
    refine forall_cons (.inr (.inl fun w l h => (nomatch h))) ?_
    refine forall_cons (.inr (.inl fun w l h => (nomatch h))) ?_
    refine forall_cons (.inr (.inl fun w l h => (nomatch h))) ?_
    refine forall_cons (.inr (.inl fun w l h => (nomatch h))) ?_
    refine forall_cons (.inr (.inl fun w l h => (nomatch h))) ?_
    refine forall_cons (.inr (.inl fun w l h => (nomatch h))) ?_
    refine forall_cons (.inr (.inl fun w l h => (nomatch h))) ?_
    refine forall_cons (.inr (.inl fun w l h => (nomatch h))) ?_
    refine forall_cons (.inr (.inl fun w l h => (nomatch h))) ?_
    refine forall_cons (.inr (.inl fun w l h => (nomatch h))) ?_
    refine forall_cons (.inr (.inl fun w l h => (nomatch h))) ?_
    refine forall_cons (.inr (.inl fun w l h => (nomatch h))) ?_
    refine forall_cons (.inr (.inl fun w l h => (nomatch h))) ?_
    refine forall_cons (.inr (.inl fun w l h => (nomatch h))) ?_
    refine forall_cons (.inr (.inl fun w l h => (nomatch h))) ?_
    refine forall_cons (.inr (.inl fun w l h => (nomatch h))) ?_
    refine forall_cons (.inr (.inl fun w l h => (nomatch h))) ?_
    exact forall_nil
  | .record .ResourceStorage =>
    refine forall_cons (.inr (.inl fun w l h => (nomatch h))) ?_
    refine forall_cons (.inr (.inl fun w l h => (nomatch h))) ?_
    refine forall_cons (.inr (.inl fun w l h => (nomatch h))) ?_
    exact forall_nil
  | .record .DamageGraphic =>
    refine forall_cons (.inr (.inl fun w l h => (nomatch h))) ?_
    refine forall_cons (.inr (.inl fun w l h => (nomatch h))) ?_
    refine forall_cons (.inr (.inl fun w l h => (nomatch h))) ?_
    exact forall_nil
  | .record .DeadFish =>
    refine forall_cons (.inr (.inl fun w l h => (nomatch h))) ?_
    refine forall_cons (.inr (.inl fun w l h => (nomatch h))) ?_
    refine forall_cons (.inr (.inl fun w l h => (nomatch h))) ?_
    refine forall_cons (.inr (.inl fun w l h => (nomatch h))) ?_
    refine forall_cons (.inr (.inl fun w l h => (nomatch h))) ?_
    refine forall_cons (.inr (.inl fun w l h => (nomatch h))) ?_
    refine forall_cons (.inr (.inl fun w l h => (nomatch h))) ?_
    refine forall_cons (.inr (.inl fun w l h => (nomatch h))) ?_
    refine forall_cons (.inr (.inl fun w l h => (nomatch h))) ?_
    refine forall_cons (.inr (.inl fun w l h => (nomatch h))) ?_
    refine forall_cons (.inr (.inl fun w l h => (nomatch h))) ?_
    refine forall_cons (.inr (.inl fun w l h => (nomatch h))) ?_
    refine forall_cons (.inr (.inl fun w l h => (nomatch h))) ?_
    refine forall_cons (.inr (.inl fun w l h => (nomatch h))) ?_
    exact forall_nil
  | .record .Bird =>
    refine forall_cons (.inr (.inl fun w l h => (nomatch h))) ?_
    refine forall_cons (.inr (.inl fun w l h => (nomatch h))) ?_
    refine forall_cons (.inr (.inl fun w l h => (nomatch h))) ?_
    refine forall_cons (.inl ⟨_, .head _, rfl⟩) ?_
    refine forall_cons (.inr (.inl fun w l h => (nomatch h))) ?_
    refine forall_cons (.inr (.inl fun w l h => (nomatch h))) ?_
    refine forall_cons (.inr (.inl fun w l h => (nomatch h))) ?_
    refine forall_cons (.inr (.inl fun w l h => (nomatch h))) ?_
    refine forall_cons (.inr (.inl fun w l h => (nomatch h))) ?_
    refine forall_cons (.inr (.inl fun w l h => (nomatch h))) ?_
    refine forall_cons (.inl ⟨_, .tail _ (.head _), rfl⟩) ?_
    exact forall_nil
  | .record .AttackOrArmor =>
    refine forall_cons (.inr (.inl fun w l h => (nomatch h))) ?_
    refine forall_cons (.inr (.inl fun w l h => (nomatch h))) ?_
    exact forall_nil
  | .record .Type50 =>
    refine forall_cons (.inr (.inl fun w l h => (nomatch h))) ?_
    refine forall_cons (.inl ⟨_, .head _, rfl⟩) ?_
    refine forall_cons (.inl ⟨_, .tail _ (.head _), rfl⟩) ?_
    refine forall_cons (.inr (.inl fun w l h => (nomatch h))) ?_
    refine forall_cons (.inr (.inl fun w l h => (nomatch h))) ?_
    refine forall_cons (.inr (.inl fun w l h => (nomatch h))) ?_
    refine forall_cons (.inr (.inl fun w l h => (nomatch h))) ?_
    refine forall_cons (.inr (.inl fun w l h => (nomatch h))) ?_
    refine forall_cons (.inr (.inl fun w l h => (nomatch h))) ?_
    refine forall_cons (.inr (.inl fun w l h => (nomatch h))) ?_
    refine forall_cons (.inr (.inl fun w l h => (nomatch h))) ?_
    refine forall_cons (.inr (.inl fun w l h => (nomatch h))) ?_
    refine forall_cons (.inr (.inl fun w l h => (nomatch h))) ?_
    refine forall_cons (.inr (.inl fun w l h => (nomatch h))) ?_
    refine forall_cons (.inr (.inl fun w l h => (nomatch h))) ?_
    refine forall_cons (.inr (.inl fun w l h => (nomatch h))) ?_
    refine forall_cons (.inr (.inl fun w l h => (nomatch h))) ?_
    refine forall_cons (.inr (.inl fun w l h => (nomatch h))) ?_
    refine forall_cons (.inr (.inl fun w l h => (nomatch h))) ?_
    refine forall_cons (.inr (.inl fun w l h => (nomatch h))) ?_
    refine forall_cons (.inr (.inl fun w l h => (nomatch h))) ?_
    refine forall_cons (.inr (.inl fun w l h => (nomatch h))) ?_
    refine forall_cons (.inr (.inl fun w l h => (nomatch h))) ?_
    refine forall_cons (.inr (.inl fun w l h => (nomatch h))) ?_
    refine forall_cons (.inr (.inl fun w l h => (nomatch h))) ?_
    refine forall_cons (.inr (.inl fun w l h => (nomatch h))) ?_
    refine forall_cons (.inr (.inl fun w l h => (nomatch h))) ?_
    exact forall_nil
  | .record .Projectile =>
    refine forall_cons (.inr (.inl fun w l h => (nomatch h))) ?_
    refine forall_cons (.inr (.inl fun w l h => (nomatch h))) ?_
    refine forall_cons (.inr (.inl fun w l h => (nomatch h))) ?_
    refine forall_cons (.inr (.inl fun w l h => (nomatch h))) ?_
    refine forall_cons (.inr (.inl fun w l h => (nomatch h))) ?_
    refine forall_cons (.inr (.inl fun w l h => (nomatch h))) ?_
    exact forall_nil
  | .record .ResourceCost =>
    refine forall_cons (.inr (.inl fun w l h => (nomatch h))) ?_
    refine forall_cons (.inr (.inl fun w l h => (nomatch h))) ?_
    refine forall_cons (.inr (.inl fun w l h => (nomatch h))) ?_
    exact forall_nil
  | .record .TrainLocation =>
    refine forall_cons (.inr (.inl fun w l h => (nomatch h))) ?_
    refine forall_cons (.inr (.inl fun w l h => (nomatch h))) ?_
    refine forall_cons (.inr (.inl fun w l h => (nomatch h))) ?_
    refine forall_cons (.inr (.inl fun w l h => (nomatch h))) ?_
    exact forall_nil
  | .record .Creatable =>
    refine forall_cons (.inr (.inl fun w l h => (nomatch h))) ?_
    refine forall_cons (.inl ⟨_, .head _, rfl⟩) ?_
    refine forall_cons (.inr (.inl fun w l h => (nomatch h))) ?_
    refine forall_cons (.inr (.inl fun w l h => (nomatch h))) ?_
    refine forall_cons (.inr (.inl fun w l h => (nomatch h))) ?_
    refine forall_cons (.inr (.inl fun w l h => (nomatch h))) ?_
    refine forall_cons (.inr (.inl fun w l h => (nomatch h))) ?_
    refine forall_cons (.inr (.inl fun w l h => (nomatch h))) ?_
    refine forall_cons (.inr (.inl fun w l h => (nomatch h))) ?_
    refine forall_cons (.inr (.inl fun w l h => (nomatch h))) ?_
    refine forall_cons (.inr (.inl fun w l h => (nomatch h))) ?_
    refine forall_cons (.inr (.inl fun w l h => (nomatch h))) ?_
    refine forall_cons (.inr (.inl fun w l h => (nomatch h))) ?_
    refine forall_cons (.inr (.inl fun w l h => (nomatch h))) ?_
    refine forall_cons (.inr (.inl fun w l h => (nomatch h))) ?_
    refine forall_cons (.inr (.inl fun w l h => (nomatch h))) ?_
    refine forall_cons (.inr (.inl fun w l h => (nomatch h))) ?_
    refine forall_cons (.inr (.inl fun w l h => (nomatch h))) ?_
    refine forall_cons (.inr (.inl fun w l h => (nomatch h))) ?_
    refine forall_cons (.inr (.inl fun w l h => (nomatch h))) ?_
    refine forall_cons (.inr (.inl fun w l h => (nomatch h))) ?_
    refine forall_cons (.inr (.inl fun w l h => (nomatch h))) ?_
    refine forall_cons (.inr (.inl fun w l h => (nomatch h))) ?_
    refine forall_cons (.inr (.inl fun w l h => (nomatch h))) ?_
    refine forall_cons (.inr (.inl fun w l h => (nomatch h))) ?_
    refine forall_cons (.inr (.inl fun w l h => (nomatch h))) ?_
    refine forall_cons (.inr (.inl fun w l h => (nomatch h))) ?_
    refine forall_cons (.inr (.inl fun w l h => (nomatch h))) ?_
    refine forall_cons (.inr (.inl fun w l h => (nomatch h))) ?_
    refine forall_cons (.inr (.inl fun w l h => (nomatch h))) ?_
    refine forall_cons (.inr (.inl fun w l h => (nomatch h))) ?_
    refine forall_cons (.inr (.inl fun w l h => (nomatch h))) ?_
    refine forall_cons (.inr (.inl fun w l h => (nomatch h))) ?_
    exact forall_nil
  | .record .BuildingAnnex =>
    refine forall_cons (.inr (.inl fun w l h => (nomatch h))) ?_
    refine forall_cons (.inr (.inl fun w l h => (nomatch h))) ?_
    refine forall_cons (.inr (.inl fun w l h => (nomatch h))) ?_
    exact forall_nil
  | .record .Building =>
    refine forall_cons (.inr (.inl fun w l h => (nomatch h))) ?_
    refine forall_cons (.inr (.inl fun w l h => (nomatch h))) ?_
    refine forall_cons (.inr (.inl fun w l h => (nomatch h))) ?_
    refine forall_cons (.inr (.inl fun w l h => (nomatch h))) ?_
    refine forall_cons (.inr (.inl fun w l h => (nomatch h))) ?_
    refine forall_cons (.inr (.inl fun w l h => (nomatch h))) ?_
    refine forall_cons (.inr (.inl fun w l h => (nomatch h))) ?_
    refine forall_cons (.inr (.inl fun w l h => (nomatch h))) ?_
    refine forall_cons (.inr (.inl fun w l h => (nomatch h))) ?_
    refine forall_cons (.inr (.inl fun w l h => (nomatch h))) ?_
    refine forall_cons (.inr (.inl fun w l h => (nomatch h))) ?_
    refine forall_cons (.inr (.inl fun w l h => (nomatch h))) ?_
    refine forall_cons (.inr (.inl fun w l h => (nomatch h))) ?_
    refine forall_cons (.inr (.inl fun w l h => (nomatch h))) ?_
    refine forall_cons (.inr (.inl fun w l h => (nomatch h))) ?_
    refine forall_cons (.inr (.inl fun w l h => (nomatch h))) ?_
    refine forall_cons (.inr (.inl fun w l h => (nomatch h))) ?_
    refine forall_cons (.inr (.inl fun w l h => (nomatch h))) ?_
    refine forall_cons (.inr (.inl fun w l h => (nomatch h))) ?_
    refine forall_cons (.inr (.inl fun w l h => (nomatch h))) ?_
    refine forall_cons (.inr (.inl fun w l h => (nomatch h))) ?_
    refine forall_cons (.inr (.inl fun w l h => (nomatch h))) ?_
    refine forall_cons (.inr (.inl fun w l h => (nomatch h))) ?_
    refine forall_cons (.inr (.inl fun w l h => (nomatch h))) ?_
    refine forall_cons (.inr (.inl fun w l h => (nomatch h))) ?_
    refine forall_cons (.inr (.inl fun w l h => (nomatch h))) ?_
    exact forall_nil
  | .record .Unit =>
    refine forall_cons (.inr (.inl fun w l h => (nomatch h))) ?_
    refine forall_cons (.inr (.inl fun w l h => (nomatch h))) ?_
    refine forall_cons (.inr (.inl fun w l h => (nomatch h))) ?_
    refine forall_cons (.inr (.inl fun w l h => (nomatch h))) ?_
    refine forall_cons (.inr (.inl fun w l h => (nomatch h))) ?_
    refine forall_cons (.inr (.inl fun w l h => (nomatch h))) ?_
    refine forall_cons (.inr (.inl fun w l h => (nomatch h))) ?_
    refine forall_cons (.inr (.inl fun w l h => (nomatch h))) ?_
    refine forall_cons (.inr (.inl fun w l h => (nomatch h))) ?_
    refine forall_cons (.inr (.inl fun w l h => (nomatch h))) ?_
    refine forall_cons (.inr (.inl fun w l h => (nomatch h))) ?_
    refine forall_cons (.inr (.inl fun w l h => (nomatch h))) ?_
    refine forall_cons (.inr (.inl fun w l h => (nomatch h))) ?_
    refine forall_cons (.inr (.inl fun w l h => (nomatch h))) ?_
    refine forall_cons (.inr (.inl fun w l h => (nomatch h))) ?_
    refine forall_cons (.inr (.inl fun w l h => (nomatch h))) ?_
    refine forall_cons (.inr (.inl fun w l h => (nomatch h))) ?_
    refine forall_cons (.inr (.inl fun w l h => (nomatch h))) ?_
    refine forall_cons (.inr (.inl fun w l h => (nomatch h))) ?_
    refine forall_cons (.inr (.inl fun w l h => (nomatch h))) ?_
    refine forall_cons (.inr (.inl fun w l h => (nomatch h))) ?_
    refine forall_cons (.inr (.inl fun w l h => (nomatch h))) ?_
    refine forall_cons (.inr (.inl fun w l h => (nomatch h))) ?_
    refine forall_cons (.inr (.inl fun w l h => (nomatch h))) ?_
    refine forall_cons (.inr (.inl fun w l h => (nomatch h))) ?_
    refine forall_cons (.inr (.inl fun w l h => (nomatch h))) ?_
    refine forall_cons (.inr (.inl fun w l h => (nomatch h))) ?_
    refine forall_cons (.inr (.inl fun w l h => (nomatch h))) ?_
    refine forall_cons (.inr (.inl fun w l h => (nomatch h))) ?_
    refine forall_cons (.inr (.inl fun w l h => (nomatch h))) ?_
    refine forall_cons (.inr (.inl fun w l h => (nomatch h))) ?_
    refine forall_cons (.inr (.inl fun w l h => (nomatch h))) ?_
    refine forall_cons (.inr (.inl fun w l h => (nomatch h))) ?_
    refine forall_cons (.inr (.inl fun w l h => (nomatch h))) ?_
    refine forall_cons (.inr (.inl fun w l h => (nomatch h))) ?_
    refine forall_cons (.inr (.inl fun w l h => (nomatch h))) ?_
    refine forall_cons (.inr (.inl fun w l h => (nomatch h))) ?_
    refine forall_cons (.inr (.inl fun w l h => (nomatch h))) ?_
    refine forall_cons (.inr (.inl fun w l h => (nomatch h))) ?_
    refine forall_cons (.inr (.inl fun w l h => (nomatch h))) ?_
    refine forall_cons (.inr (.inl fun w l h => (nomatch h))) ?_
    refine forall_cons (.inr (.inl fun w l h => (nomatch h))) ?_
    refine forall_cons (.inr (.inl fun w l h => (nomatch h))) ?_
    refine forall_cons (.inr (.inl fun w l h => (nomatch h))) ?_
    refine forall_cons (.inr (.inl fun w l h => (nomatch h))) ?_
    refine forall_cons (.inr (.inl fun w l h => (nomatch h))) ?_
    refine forall_cons (.inr (.inl fun w l h => (nomatch h))) ?_
    refine forall_cons (.inr (.inl fun w l h => (nomatch h))) ?_
    refine forall_cons (.inr (.inl fun w l h => (nomatch h))) ?_
    refine forall_cons (.inr (.inl fun w l h => (nomatch h))) ?_
    refine forall_cons (.inr (.inl fun w l h => (nomatch h))) ?_
    refine forall_cons (.inr (.inl fun w l h => (nomatch h))) ?_
    refine forall_cons (.inr (.inl fun w l h => (nomatch h))) ?_
    refine forall_cons (.inr (.inl fun w l h => (nomatch h))) ?_
    refine forall_cons (.inr (.inl fun w l h => (nomatch h))) ?_
    refine forall_cons (.inr (.inl fun w l h => (nomatch h))) ?_
    refine forall_cons (.inr (.inl fun w l h => (nomatch h))) ?_
    refine forall_cons (.inr (.inl fun w l h => (nomatch h))) ?_
    refine forall_cons (.inr (.inl fun w l h => (nomatch h))) ?_
    refine forall_cons (.inr (.inl fun w l h => (nomatch h))) ?_
    refine forall_cons (.inr (.inl fun w l h => (nomatch h))) ?_
    refine forall_cons (.inr (.inl fun w l h => (nomatch h))) ?_
    refine forall_cons (.inr (.inl fun w l h => (nomatch h))) ?_
    refine forall_cons (.inl ⟨_, .head _, rfl⟩) ?_
    refine forall_cons (.inr (.inl fun w l h => (nomatch h))) ?_
    refine forall_cons (.inr (.inl fun w l h => (nomatch h))) ?_
    refine forall_cons (.inr (.inl fun w l h => (nomatch h))) ?_
    refine forall_cons (.inr (.inl fun w l h => (nomatch h))) ?_
    refine forall_cons (.inr (.inl fun w l h => (nomatch h))) ?_
    refine forall_cons (.inr (.inl fun w l h => (nomatch h))) ?_
    refine forall_cons (.inr (.inl fun w l h => (nomatch h))) ?_
    refine forall_cons (.inr (.inl fun w l h => (nomatch h))) ?_
    refine forall_cons (.inr (.inl fun w l h => (nomatch h))) ?_
    refine forall_cons (.inr (.inl fun w l h => (nomatch h))) ?_
    refine forall_cons (.inr (.inl fun w l h => (nomatch h))) ?_
    refine forall_cons (.inr (.inl fun w l h => (by cases w <;> cases h))) ?_
    refine forall_cons (.inr (.inl fun w l h => (by cases w <;> cases h))) ?_
    refine forall_cons (.inr (.inl fun w l h => (by cases w <;> cases h))) ?_
    refine forall_cons (.inr (.inl fun w l h => (by cases w <;> cases h))) ?_
    refine forall_cons (.inr (.inl fun w l h => (by cases w <;> cases h))) ?_
    refine forall_cons (.inr (.inl fun w l h => (by cases w <;> cases h))) ?_
    refine forall_cons (.inr (.inl fun w l h => (by cases w <;> cases h))) ?_
    exact forall_nil
  | .record .UnitHeaders =>
    refine forall_cons (.inr (.inl fun w l h => (nomatch h))) ?_
    refine forall_cons (.inr (.inr ⟨rfl, rfl⟩)) ?_
    exact forall_nil
  | .record .Civ =>
    refine forall_cons (.inr (.inl fun w l h => (nomatch h))) ?_
    refine forall_cons (.inr (.inl fun w l h => (nomatch h))) ?_
    refine forall_cons (.inr (.inl fun w l h => (nomatch h))) ?_
    refine forall_cons (.inr (.inl fun w l h => (nomatch h))) ?_
    refine forall_cons (.inl ⟨_, .head _, rfl⟩) ?_
    refine forall_cons (.inr (.inl fun w l h => (nomatch h))) ?_
    refine forall_cons (.inl ⟨_, .tail _ (.head _), rfl⟩) ?_
    exact forall_nil
  | .file =>
    refine forall_cons (.inr (.inl fun w l h => (nomatch h))) ?_
    refine forall_cons (.inl ⟨_, .head _, rfl⟩) ?_
    refine forall_cons (.inl ⟨_, .tail _ (.head _), rfl⟩) ?_
    refine forall_cons (.inl ⟨_, .tail _ (.tail _ (.head _)), rfl⟩) ?_
    refine forall_cons (.inl ⟨_, .tail _ (.tail _ (.tail _ (.head _))), rfl⟩) ?_
    refine forall_cons (.inl ⟨_, .tail _ (.tail _ (.tail _ (.tail _ (.head _)))), rfl⟩) ?_
    refine forall_cons (.inl ⟨_, .tail _ (.tail _ (.tail _ (.tail _ (.tail _ (.head _))))), rfl⟩) ?_
    refine forall_cons (.inr (.inl fun w l h => (nomatch h))) ?_
    refine forall_cons (.inr (.inl fun w l h => (nomatch h))) ?_
    refine forall_cons (.inl ⟨_, .tail _ (.tail _ (.tail _ (.tail _ (.tail _ (.tail _ (.head _)))))), rfl⟩) ?_
    refine forall_cons (.inl ⟨_, .tail _ (.tail _ (.tail _ (.tail _ (.tail _ (.tail _ (.tail _ (.head _))))))), rfl⟩) ?_
    refine forall_cons (.inl ⟨_, .tail _ (.tail _ (.tail _ (.tail _ (.tail _ (.tail _ (.tail _ (.tail _ (.head _)))))))), rfl⟩) ?_
    refine forall_cons (.inl ⟨_, .tail _ (.tail _ (.tail _ (.tail _ (.tail _ (.tail _ (.tail _ (.tail _ (.tail _ (.head _))))))))), rfl⟩) ?_
    refine forall_cons (.inr (.inl fun w l h => (nomatch h))) ?_
    refine forall_cons (.inr (.inl fun w l h => (nomatch h))) ?_
    refine forall_cons (.inr (.inl fun w l h => (nomatch h))) ?_
    refine forall_cons (.inr (.inl fun w l h => (nomatch h))) ?_
    refine forall_cons (.inr (.inl fun w l h => (nomatch h))) ?_
    refine forall_cons (.inr (.inl fun w l h => (nomatch h))) ?_
    refine forall_cons (.inr (.inl fun w l h => (nomatch h))) ?_
    refine forall_cons (.inr (.inl fun w l h => (nomatch h))) ?_
    exact forall_nil

theorem Slot.shown {a b : Node} (s : Slot a b) (x : a.Obj) (m y : b.Obj) (h : s.get x = some m) : SlotShown s x m y := by
  cases s with
  | Effect_effect_commands i => exact .item (tuple := false) (mapped (f := EffectCommand.object) (show (Effect.effect_commands x)[i]? = some m from h)) (mapped_set EffectCommand.object y) (.of 1 (Effect.names_nodup x) rfl rfl)
  | Sound_items i => exact .item (tuple := false) (mapped (f := SoundItem.object) (show (Sound.items x)[i]? = some m from h)) (mapped_set SoundItem.object y) (.of 4 (Sound.names_nodup x) rfl rfl)
  | Graphic_deltas i => exact .item (tuple := false) (mapped (f := GraphicDelta.object) (show (Graphic.deltas x)[i]? = some m from h)) (mapped_set GraphicDelta.object y) (.of 22 (Graphic.names_nodup x) rfl rfl)
  | Graphic_angle_sounds i => exact .item (tuple := false) (mapped (f := GraphicAngleSound.object) (show (Graphic.angle_sounds x)[i]? = some m from h)) (mapped_set GraphicAngleSound.object y) (.of 23 (Graphic.names_nodup x) rfl rfl)
  | Terrain_frame_data i => exact .item (tuple := false) (mapped (f := FrameData.object) (show (Terrain.frame_data x)[i]? = some m from h)) (mapped_set FrameData.object y) (.of 29 (Terrain.names_nodup x) rfl rfl)
  | TerrainBlock_tile_sizes i => exact .item (tuple := false) (mapped (f := TileSize.object) (show (TerrainBlock.tile_sizes x)[i]? = some m from h)) (mapped_set TileSize.object y) (.of 6 (TerrainBlock.names_nodup x) rfl rfl)
  | TerrainBlock_terrains i => exact .item (tuple := false) (mapped (f := Terrain.object) (show (TerrainBlock.terrains x)[i]? = some m from h)) (mapped_set Terrain.object y) (.of 8 (TerrainBlock.names_nodup x) rfl rfl)
  | MapInfo_map_lands i => exact .item (tuple := false) (mapped (f := MapLand.object) (show (MapInfo.map_lands x)[i]? = some m from h)) (mapped_set MapLand.object y) (.of 12 (MapInfo.names_nodup x) rfl rfl)
  | MapInfo_map_terrains i => exact .item (tuple := false) (mapped (f := MapTerrain.object) (show (MapInfo.map_terrains x)[i]? = some m from h)) (mapped_set MapTerrain.object y) (.of 15 (MapInfo.names_nodup x) rfl rfl)
  | MapInfo_map_units i => exact .item (tuple := false) (mapped (f := MapUnit.object) (show (MapInfo.map_units x)[i]? = some m from h)) (mapped_set MapUnit.object y) (.of 18 (MapInfo.names_nodup x) rfl rfl)
  | MapInfo_map_elevations i => exact .item (tuple := false) (mapped (f := MapElevation.object) (show (MapInfo.map_elevations x)[i]? = some m from h)) (mapped_set MapElevation.object y) (.of 21 (MapInfo.names_nodup x) rfl rfl)
  | RandomMaps_map_info_1 i => exact .item (tuple := false) (mapped (f := MapInfo.object) (show (RandomMaps.map_info_1 x)[i]? = some m from h)) (mapped_set MapInfo.object y) (.of 1 (RandomMaps.names_nodup x) rfl rfl)
  | RandomMaps_map_info_2 i => exact .item (tuple := false) (mapped (f := MapInfo.object) (show (RandomMaps.map_info_2 x)[i]? = some m from h)) (mapped_set MapInfo.object y) (.of 2 (RandomMaps.names_nodup x) rfl rfl)
  | Tech_resource_costs i => exact .item (tuple := true) (mapped (f := ResearchResourceCost.object) (show (Tech.resource_costs x)[i]? = some m from h)) (mapped_set ResearchResourceCost.object y) (.of 1 (Tech.names_nodup x) rfl rfl)
  | Tech_research_locations i => exact .item (tuple := false) (mapped (f := ResearchLocation.object) (show (Tech.research_locations x)[i]? = some m from h)) (mapped_set ResearchLocation.object y) (.of 14 (Tech.names_nodup x) rfl rfl)
  | TechTreeAge_common => cases h; exact .attr (.of 5 (TechTreeAge.names_nodup x) rfl rfl)
  | BuildingConnection_common => cases h; exact .attr (.of 5 (BuildingConnection.names_nodup x) rfl rfl)
  | UnitConnection_common => cases h; exact .attr (.of 3 (UnitConnection.names_nodup x) rfl rfl)
  | ResearchConnection_common => cases h; exact .attr (.of 6 (ResearchConnection.names_nodup x) rfl rfl)
  | TechTree_tech_tree_ages i => exact .item (tuple := false) (mapped (f := TechTreeAge.object) (show (TechTree.tech_tree_ages x)[i]? = some m from h)) (mapped_set TechTreeAge.object y) (.of 1 (TechTree.names_nodup x) rfl rfl)
  | TechTree_building_connections i => exact .item (tuple := false) (mapped (f := BuildingConnection.object) (show (TechTree.building_connections x)[i]? = some m from h)) (mapped_set BuildingConnection.object y) (.of 2 (TechTree.names_nodup x) rfl rfl)
  | TechTree_unit_connections i => exact .item (tuple := false) (mapped (f := UnitConnection.object) (show (TechTree.unit_connections x)[i]? = some m from h)) (mapped_set UnitConnection.object y) (.of 3 (TechTree.names_nodup x) rfl rfl)
  | TechTree_research_connections i => exact .item (tuple := false) (mapped (f := ResearchConnection.object) (show (TechTree.research_connections x)[i]? = some m from h)) (mapped_set ResearchConnection.object y) (.of 4 (TechTree.names_nodup x) rfl rfl)
  | Bird_tasks i => exact .item (tuple := false) (mapped (f := Task.object) (show (Bird.tasks x)[i]? = some m from h)) (mapped_set Task.object y) (.of 10 (Bird.names_nodup x) rfl rfl)
  | Type50_attacks i => exact .item (tuple := false) (mapped (f := AttackOrArmor.object) (show (Type50.attacks x)[i]? = some m from h)) (mapped_set AttackOrArmor.object y) (.of 1 (Type50.names_nodup x) rfl rfl)
  | Type50_armours i => exact .item (tuple := false) (mapped (f := AttackOrArmor.object) (show (Type50.armours x)[i]? = some m from h)) (mapped_set AttackOrArmor.object y) (.of 2 (Type50.names_nodup x) rfl rfl)
  | Creatable_resource_costs i => exact .item (tuple := true) (mapped (f := ResourceCost.object) (show (Creatable.resource_costs x)[i]? = some m from h)) (mapped_set ResourceCost.object y) (.of 0 (Creatable.names_nodup x) rfl rfl)
  | Creatable_train_locations i => exact .item (tuple := false) (mapped (f := TrainLocation.object) (show (Creatable.train_locations x)[i]? = some m from h)) (mapped_set TrainLocation.object y) (.of 1 (Creatable.names_nodup x) rfl rfl)
  | Building_annexes i => exact .item (tuple := true) (mapped (f := BuildingAnnex.object) (show (Building.annexes x)[i]? = some m from h)) (mapped_set BuildingAnnex.object y) (.of 14 (Building.names_nodup x) rfl rfl)
  | Unit_resource_storages i => exact .item (tuple := true) (mapped (f := ResourceStorage.object) (show (Unit.resource_storages x)[i]? = some m from h)) (mapped_set ResourceStorage.object y) (.of 62 (Unit.names_nodup x) rfl rfl)
  | Unit_damage_graphics i => exact .item (tuple := false) (mapped (f := DamageGraphic.object) (show (Unit.damage_graphics x)[i]? = some m from h)) (mapped_set DamageGraphic.object y) (.of 63 (Unit.names_nodup x) rfl rfl)
  | Unit_dead_fish => exact .attr (.of 76 (Unit.names_nodup x) (by show some (_, optObj _ (Unit.dead_fish x)) = _; rw [show Unit.dead_fish x = some m from h]; rfl) rfl)
  | Unit_bird => exact .attr (.of 77 (Unit.names_nodup x) (by show some (_, optObj _ (Unit.bird x)) = _; rw [show Unit.bird x = some m from h]; rfl) rfl)
  | Unit_type_50 => exact .attr (.of 78 (Unit.names_nodup x) (by show some (_, optObj _ (Unit.type_50 x)) = _; rw [show Unit.type_50 x = some m from h]; rfl) rfl)
  | Unit_projectile => exact .attr (.of 79 (Unit.names_nodup x) (by show some (_, optObj _ (Unit.projectile x)) = _; rw [show Unit.projectile x = some m from h]; rfl) rfl)
  | Unit_creatable => exact .attr (.of 80 (Unit.names_nodup x) (by show some (_, optObj _ (Unit.creatable x)) = _; rw [show Unit.creatable x = some m from h]; rfl) rfl)
  | Unit_building => exact .attr (.of 81 (Unit.names_nodup x) (by show some (_, optObj _ (Unit.building x)) = _; rw [show Unit.building x = some m from h]; rfl) rfl)
  | UnitHeaders_task_list i => 
    cases e : UnitHeaders.task_list x with
    | none => rw [show Slot.get (.UnitHeaders_task_list i) x = (UnitHeaders.task_list x).bind (·[i]?) from rfl, e] at h; cases h
    | some l =>
      rw [show Slot.get (.UnitHeaders_task_list i) x = (UnitHeaders.task_list x).bind (·[i]?) from rfl, e] at h
      refine .item (tuple := false) (mapped (f := Task.object) (show l[i]? = some m from h)) (mapped_set Task.object y) (.of 1 (UnitHeaders.names_nodup x) ?_ ?_)
      · show some (_, optObj _ (UnitHeaders.task_list x)) = _; rw [e]; rfl
      · show ObjTree.obj _ [_, (_, optObj _ ((UnitHeaders.task_list x).map (·.set i y)))] = _
        rw [e]; rfl
  | Civ_units i => 
    obtain h := slotAt_some (show slotAt (Civ.units x) i = some m from h)
    exact .item (tuple := false) (mapped (f := optObj (Unit.object false)) h) (mapped_set (optObj (Unit.object false)) (some y)) (.of 6 (Civ.names_nodup x) rfl rfl)
  | TerrainRestriction_terrain_pass_graphics n i => exact .item (tuple := false) (mapped (f := TerrainPassGraphic.object) (show (TerrainRestriction.terrain_pass_graphics x)[i]? = some m from h)) (mapped_set TerrainPassGraphic.object y) (.of 1 (TerrainRestriction.names_nodup x) rfl rfl)
  | DatFile_terrain_restrictions n i => exact .item (tuple := false) (mapped (f := TerrainRestriction.object) (restrictions_get h).1) (mapped_set TerrainRestriction.object y) (.of 3 (DatFile.names_nodup x) rfl rfl)
  | DatFile_player_colours i => exact .item (tuple := false) (mapped (f := PlayerColour.object) (show (DatFile.player_colours x)[i]? = some m from h)) (mapped_set PlayerColour.object y) (.of 4 (DatFile.names_nodup x) rfl rfl)
  | DatFile_sounds i => exact .item (tuple := false) (mapped (f := Sound.object) (show (DatFile.sounds x)[i]? = some m from h)) (mapped_set Sound.object y) (.of 5 (DatFile.names_nodup x) rfl rfl)
  | DatFile_graphics i => 
    obtain h := slotAt_some (show slotAt (DatFile.graphics x) i = some m from h)
    exact .item (tuple := false) (mapped (f := optObj Graphic.object) h) (mapped_set (optObj Graphic.object) (some y)) (.of 6 (DatFile.names_nodup x) rfl rfl)
  | DatFile_terrain_block => cases h; exact .attr (.of 7 (DatFile.names_nodup x) rfl rfl)
  | DatFile_random_maps => cases h; exact .attr (.of 8 (DatFile.names_nodup x) rfl rfl)
  | DatFile_effects i => exact .item (tuple := false) (mapped (f := Effect.object) (show (DatFile.effects x)[i]? = some m from h)) (mapped_set Effect.object y) (.of 9 (DatFile.names_nodup x) rfl rfl)
  | DatFile_unit_headers i => exact .item (tuple := false) (mapped (f := UnitHeaders.object) (show (DatFile.unit_headers x)[i]? = some m from h)) (mapped_set UnitHeaders.object y) (.of 10 (DatFile.names_nodup x) rfl rfl)
  | DatFile_civs i => exact .item (tuple := false) (mapped (f := (Civ.object false)) (show (DatFile.civs x)[i]? = some m from h)) (mapped_set (Civ.object false) y) (.of 11 (DatFile.names_nodup x) rfl rfl)
  | DatFile_techs i => exact .item (tuple := false) (mapped (f := Tech.object) (show (DatFile.techs x)[i]? = some m from h)) (mapped_set Tech.object y) (.of 12 (DatFile.names_nodup x) rfl rfl)
  | DatFile_tech_tree => cases h; exact .attr (.of 20 (DatFile.names_nodup x) rfl rfl)

theorem Slot.missing {a b : Node} (s : Slot a b) (x : a.Obj) (h : s.get x = none) (hr : s.Right x) : SlotMissing s x := by
  cases s with
  | Effect_effect_commands i => exact .item 1 false (.inl (mapped_none EffectCommand.object (show (Effect.effect_commands x)[i]? = none from h))) rfl (Effect.names_nodup x) rfl
  | Sound_items i => exact .item 4 false (.inl (mapped_none SoundItem.object (show (Sound.items x)[i]? = none from h))) rfl (Sound.names_nodup x) rfl
  | Graphic_deltas i => exact .item 22 false (.inl (mapped_none GraphicDelta.object (show (Graphic.deltas x)[i]? = none from h))) rfl (Graphic.names_nodup x) rfl
  | Graphic_angle_sounds i => exact .item 23 false (.inl (mapped_none GraphicAngleSound.object (show (Graphic.angle_sounds x)[i]? = none from h))) rfl (Graphic.names_nodup x) rfl
  | Terrain_frame_data i => exact .item 29 false (.inl (mapped_none FrameData.object (show (Terrain.frame_data x)[i]? = none from h))) rfl (Terrain.names_nodup x) rfl
  | TerrainBlock_tile_sizes i => exact .item 6 false (.inl (mapped_none TileSize.object (show (TerrainBlock.tile_sizes x)[i]? = none from h))) rfl (TerrainBlock.names_nodup x) rfl
  | TerrainBlock_terrains i => exact .item 8 false (.inl (mapped_none Terrain.object (show (TerrainBlock.terrains x)[i]? = none from h))) rfl (TerrainBlock.names_nodup x) rfl
  | MapInfo_map_lands i => exact .item 12 false (.inl (mapped_none MapLand.object (show (MapInfo.map_lands x)[i]? = none from h))) rfl (MapInfo.names_nodup x) rfl
  | MapInfo_map_terrains i => exact .item 15 false (.inl (mapped_none MapTerrain.object (show (MapInfo.map_terrains x)[i]? = none from h))) rfl (MapInfo.names_nodup x) rfl
  | MapInfo_map_units i => exact .item 18 false (.inl (mapped_none MapUnit.object (show (MapInfo.map_units x)[i]? = none from h))) rfl (MapInfo.names_nodup x) rfl
  | MapInfo_map_elevations i => exact .item 21 false (.inl (mapped_none MapElevation.object (show (MapInfo.map_elevations x)[i]? = none from h))) rfl (MapInfo.names_nodup x) rfl
  | RandomMaps_map_info_1 i => exact .item 1 false (.inl (mapped_none MapInfo.object (show (RandomMaps.map_info_1 x)[i]? = none from h))) rfl (RandomMaps.names_nodup x) rfl
  | RandomMaps_map_info_2 i => exact .item 2 false (.inl (mapped_none MapInfo.object (show (RandomMaps.map_info_2 x)[i]? = none from h))) rfl (RandomMaps.names_nodup x) rfl
  | Tech_resource_costs i => exact .item 1 true (.inl (mapped_none ResearchResourceCost.object (show (Tech.resource_costs x)[i]? = none from h))) rfl (Tech.names_nodup x) rfl
  | Tech_research_locations i => exact .item 14 false (.inl (mapped_none ResearchLocation.object (show (Tech.research_locations x)[i]? = none from h))) rfl (Tech.names_nodup x) rfl
  | TechTreeAge_common => cases h
  | BuildingConnection_common => cases h
  | UnitConnection_common => cases h
  | ResearchConnection_common => cases h
  | TechTree_tech_tree_ages i => exact .item 1 false (.inl (mapped_none TechTreeAge.object (show (TechTree.tech_tree_ages x)[i]? = none from h))) rfl (TechTree.names_nodup x) rfl
  | TechTree_building_connections i => exact .item 2 false (.inl (mapped_none BuildingConnection.object (show (TechTree.building_connections x)[i]? = none from h))) rfl (TechTree.names_nodup x) rfl
  | TechTree_unit_connections i => exact .item 3 false (.inl (mapped_none UnitConnection.object (show (TechTree.unit_connections x)[i]? = none from h))) rfl (TechTree.names_nodup x) rfl
  | TechTree_research_connections i => exact .item 4 false (.inl (mapped_none ResearchConnection.object (show (TechTree.research_connections x)[i]? = none from h))) rfl (TechTree.names_nodup x) rfl
  | Bird_tasks i => exact .item 10 false (.inl (mapped_none Task.object (show (Bird.tasks x)[i]? = none from h))) rfl (Bird.names_nodup x) rfl
  | Type50_attacks i => exact .item 1 false (.inl (mapped_none AttackOrArmor.object (show (Type50.attacks x)[i]? = none from h))) rfl (Type50.names_nodup x) rfl
  | Type50_armours i => exact .item 2 false (.inl (mapped_none AttackOrArmor.object (show (Type50.armours x)[i]? = none from h))) rfl (Type50.names_nodup x) rfl
  | Creatable_resource_costs i => exact .item 0 true (.inl (mapped_none ResourceCost.object (show (Creatable.resource_costs x)[i]? = none from h))) rfl (Creatable.names_nodup x) rfl
  | Creatable_train_locations i => exact .item 1 false (.inl (mapped_none TrainLocation.object (show (Creatable.train_locations x)[i]? = none from h))) rfl (Creatable.names_nodup x) rfl
  | Building_annexes i => exact .item 14 true (.inl (mapped_none BuildingAnnex.object (show (Building.annexes x)[i]? = none from h))) rfl (Building.names_nodup x) rfl
  | Unit_resource_storages i => exact .item 62 true (.inl (mapped_none ResourceStorage.object (show (Unit.resource_storages x)[i]? = none from h))) rfl (Unit.names_nodup x) rfl
  | Unit_damage_graphics i => exact .item 63 false (.inl (mapped_none DamageGraphic.object (show (Unit.damage_graphics x)[i]? = none from h))) rfl (Unit.names_nodup x) rfl
  | Unit_dead_fish => exact .attr 76 rfl (Unit.names_nodup x) (by show some (_, optObj _ (Unit.dead_fish x)) = _; rw [show Unit.dead_fish x = none from h]; rfl)
  | Unit_bird => exact .attr 77 rfl (Unit.names_nodup x) (by show some (_, optObj _ (Unit.bird x)) = _; rw [show Unit.bird x = none from h]; rfl)
  | Unit_type_50 => exact .attr 78 rfl (Unit.names_nodup x) (by show some (_, optObj _ (Unit.type_50 x)) = _; rw [show Unit.type_50 x = none from h]; rfl)
  | Unit_projectile => exact .attr 79 rfl (Unit.names_nodup x) (by show some (_, optObj _ (Unit.projectile x)) = _; rw [show Unit.projectile x = none from h]; rfl)
  | Unit_creatable => exact .attr 80 rfl (Unit.names_nodup x) (by show some (_, optObj _ (Unit.creatable x)) = _; rw [show Unit.creatable x = none from h]; rfl)
  | Unit_building => exact .attr 81 rfl (Unit.names_nodup x) (by show some (_, optObj _ (Unit.building x)) = _; rw [show Unit.building x = none from h]; rfl)
  | UnitHeaders_task_list i => 
    cases e : UnitHeaders.task_list x with
    | none => exact .noList 1 rfl (UnitHeaders.names_nodup x) (by show some (_, optObj _ (UnitHeaders.task_list x)) = _; rw [e]; rfl)
    | some l =>
      rw [show Slot.get (.UnitHeaders_task_list i) x = (UnitHeaders.task_list x).bind (·[i]?) from rfl, e] at h
      refine .item 1 false (.inl (mapped_none Task.object (show l[i]? = none from h))) rfl (UnitHeaders.names_nodup x) ?_
      show some (_, optObj _ (UnitHeaders.task_list x)) = _; rw [e]; rfl
  | Civ_units i => exact .item 6 false (slotAt_none (f := optObj (Unit.object false)) rfl h) rfl (Civ.names_nodup x) rfl
  | TerrainRestriction_terrain_pass_graphics n i => exact .item 1 false (.inl (mapped_none TerrainPassGraphic.object (show (TerrainRestriction.terrain_pass_graphics x)[i]? = none from h))) rfl (TerrainRestriction.names_nodup x) rfl
  | DatFile_terrain_restrictions n i => exact .item 3 false (.inl (mapped_none TerrainRestriction.object (restrictions_none h hr))) rfl (DatFile.names_nodup x) rfl
  | DatFile_player_colours i => exact .item 4 false (.inl (mapped_none PlayerColour.object (show (DatFile.player_colours x)[i]? = none from h))) rfl (DatFile.names_nodup x) rfl
  | DatFile_sounds i => exact .item 5 false (.inl (mapped_none Sound.object (show (DatFile.sounds x)[i]? = none from h))) rfl (DatFile.names_nodup x) rfl
  | DatFile_graphics i => exact .item 6 false (slotAt_none (f := optObj Graphic.object) rfl h) rfl (DatFile.names_nodup x) rfl
  | DatFile_terrain_block => cases h
  | DatFile_random_maps => cases h
  | DatFile_effects i => exact .item 9 false (.inl (mapped_none Effect.object (show (DatFile.effects x)[i]? = none from h))) rfl (DatFile.names_nodup x) rfl
  | DatFile_unit_headers i => exact .item 10 false (.inl (mapped_none UnitHeaders.object (show (DatFile.unit_headers x)[i]? = none from h))) rfl (DatFile.names_nodup x) rfl
  | DatFile_civs i => exact .item 11 false (.inl (mapped_none (Civ.object false) (show (DatFile.civs x)[i]? = none from h))) rfl (DatFile.names_nodup x) rfl
  | DatFile_techs i => exact .item 12 false (.inl (mapped_none Tech.object (show (DatFile.techs x)[i]? = none from h))) rfl (DatFile.names_nodup x) rfl
  | DatFile_tech_tree => cases h

end Genie
