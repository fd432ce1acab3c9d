import Verif.Spec.Items
import Verif.Spec.Versioned
/-!
# The layout of every record

Which items a record consists of, in which order (generated by `tools/gen_layout.py`, then read against the repository).
Nothing here can fail or depends on how the code evaluates things: it is a list.
-/

namespace Genie
open Layout
set_option linter.unusedVariables false

/-- Items of a `EffectCommand`. -/
def EffectCommand.layout (v : Version) (x : EffectCommand) : List Item :=
  List.flatten [
    u8 x.type,
    i16 x.a,
    i16 x.b,
    i16 x.c,
    f32 x.d]

/-- Items of a `Effect`. -/
def Effect.layout (v : Version) (x : Effect) : List Item :=
  List.flatten [
    text x.name,
    countI16 x.effect_commands,
    each (EffectCommand.layout v) x.effect_commands]

/-- Items of a `SoundItem`. -/
def SoundItem.layout (v : Version) (x : SoundItem) : List Item :=
  List.flatten [
    text x.filename,
    i32 x.resource_id,
    i16 x.probability,
    i16 x.civilization,
    i16 x.icon_set]

/-- Items of a `Sound`. -/
def Sound.layout (v : Version) (x : Sound) : List Item :=
  List.flatten [
    i16 x.id,
    i16 x.play_delay,
    countI16 x.items,
    i32 x.cache_time,
    i16 x.total_probability,
    each (SoundItem.layout v) x.items]

/-- Items of a `PlayerColour`. -/
def PlayerColour.layout (v : Version) (x : PlayerColour) : List Item :=
  List.flatten [
    i32 x.id,
    i32 x.player_color_base,
    i32 x.unit_outline_color,
    i32 x.unit_selection_color_1,
    i32 x.unit_selection_color_2,
    i32 x.minimap_color,
    i32 x.minimap_color_2,
    i32 x.minimap_color_3,
    i32 x.statistics_text]

/-- Items of a `GraphicDelta`. -/
def GraphicDelta.layout (v : Version) (x : GraphicDelta) : List Item :=
  List.flatten [
    i16 x.graphic_id,
    i16 x.padding_1,
    i32 x.sprite_ptr,
    i16 x.offset_x,
    i16 x.offset_y,
    i16 x.display_angle,
    i16 x.padding_2]

/-- Items of a `GraphicAngleSound`. -/
def GraphicAngleSound.layout (v : Version) (x : GraphicAngleSound) : List Item :=
  List.flatten [
    i16 x.frame_num,
    i16 x.sound_id,
    i32 x.wwise_sound_id,
    i16 x.frame_num_2,
    i16 x.sound_id_2,
    i32 x.wwise_sound_id_2,
    i16 x.frame_num_3,
    i16 x.sound_id_3,
    i32 x.wwise_sound_id_3]

/-- Items of a `Graphic`. -/
def Graphic.layout (v : Version) (x : Graphic) : List Item :=
  List.flatten [
    text x.name,
    text x.file_name,
    text x.particle_effect_name,
    i32 x.slp,
    u8 x.is_loaded,
    u8 x.old_color_flag,
    u8 x.layer,
    i16 x.player_color,
    u8 x.transparent_selection,
    each i16 x.coordinates,
    countI16 x.deltas,
    i16 x.sound_id,
    i32 x.wwise_sound_id,
    u8 x.angle_sounds_used,
    i16 x.frame_count,
    i16 x.angle_count,
    f32 x.speed_multiplier,
    f32 x.frame_duration,
    f32 x.replay_delay,
    u8 x.sequence_type,
    i16 x.id,
    u8 x.mirroring_mode,
    u8 x.editor_flag,
    each (GraphicDelta.layout v) x.deltas,
    each (GraphicAngleSound.layout v) x.angle_sounds]

/-- Items of a `TerrainPassGraphic`. -/
def TerrainPassGraphic.layout (v : Version) (x : TerrainPassGraphic) : List Item :=
  List.flatten [
    i32 x.exit_tile_sprite_id,
    i32 x.enter_tile_sprite_id,
    i32 x.walk_tile_sprite_id,
    i32 x.walk_sprite_rate]

/-- Items of a `TerrainRestriction`. -/
def TerrainRestriction.layout (v : Version) (x : TerrainRestriction) : List Item :=
  List.flatten [
    requires (x.passable_buildable_dmg_multiplier.length = x.terrain_pass_graphics.length) .assertionError,
    each f32 x.passable_buildable_dmg_multiplier,
    each (TerrainPassGraphic.layout v) x.terrain_pass_graphics]

/-- Items of a `FrameData`. -/
def FrameData.layout (v : Version) (x : FrameData) : List Item :=
  List.flatten [
    i16 x.frame_count,
    i16 x.angle_count,
    i16 x.shape_id]

/-- Items of a `Terrain`. -/
def Terrain.layout (v : Version) (x : Terrain) : List Item :=
  List.flatten [
    u8 x.enabled,
    u8 x.random,
    u8 x.is_water,
    u8 x.hide_in_editor,
    i32 x.string_id,
    text x.name,
    text x.name_2,
    i32 x.slp,
    i32 x.shape_ptr,
    i32 x.sound_id,
    u32 x.wwise_sound_id,
    u32 x.wwise_sound_stop_id,
    i32 x.blend_priority,
    i32 x.blend_type,
    text x.overlay_mask_name,
    each u8 x.colors,
    each u8 x.cliff_colors,
    u8 x.passable_terrain,
    u8 x.impassable_terrain,
    u8 x.is_animated,
    i16 x.animation_frames,
    i16 x.pause_frames,
    f32 x.interval,
    f32 x.pause_between_loops,
    i16 x.frame,
    i16 x.draw_frame,
    f32 x.animate_last,
    u8 x.frame_changed,
    u8 x.drawn,
    each (FrameData.layout v) x.frame_data,
    i16 x.terrain_to_draw,
    each i16 x.terrain_dimensions,
    each i16 x.terrain_unit_masked_density,
    each i16 x.terrain_unit_id,
    each i16 x.terrain_unit_density,
    each u8 x.terrain_unit_centering,
    i16 x.number_of_terrain_units_used,
    i16 x.phantom]

/-- Items of a `TileSize`. -/
def TileSize.layout (v : Version) (x : TileSize) : List Item :=
  List.flatten [
    i16 x.width,
    i16 x.height,
    i16 x.delta_y]

/-- Items of a `TerrainBlock`. -/
def TerrainBlock.layout (v : Version) (x : TerrainBlock) : List Item :=
  List.flatten [
    u32 x.virtual_function_ptr,
    u32 x.map_pointer,
    i32 x.map_width,
    i32 x.map_height,
    i32 x.world_width,
    i32 x.world_height,
    each (TileSize.layout v) x.tile_sizes,
    i16 x.padding_ts,
    each (Terrain.layout v) x.terrains,
    f32 x.map_min_x,
    f32 x.map_min_y,
    f32 x.map_max_x,
    f32 x.map_max_y,
    f32 x.map_max_x_plus_1,
    f32 x.map_max_y_plus_1,
    i16 x.terrains_used_2,
    i16 x.borders_used,
    i16 x.max_terrain,
    i16 x.tile_width,
    i16 x.tile_height,
    i16 x.tile_half_height,
    i16 x.tile_half_width,
    i16 x.elev_height,
    i16 x.cur_row,
    i16 x.cur_col,
    i16 x.block_beg_row,
    i16 x.block_end_row,
    i16 x.block_beg_col,
    i16 x.block_end_col,
    u32 x.search_map_ptr,
    u32 x.search_map_rows_ptr,
    u8 x.any_frame_change,
    u8 x.map_visible_flag,
    u8 x.fog_flag]

/-- Items of a `MapUnit`. -/
def MapUnit.layout (v : Version) (x : MapUnit) : List Item :=
  List.flatten [
    i32 x.unit,
    i32 x.host_terrain,
    u8 x.group_placing,
    u8 x.scale_flag,
    i16 x.padding_1,
    i32 x.objects_per_group,
    i32 x.fluctuation,
    i32 x.groups_per_player,
    i32 x.group_arena,
    i32 x.player_id,
    i32 x.set_place_for_all_players,
    i32 x.min_distance_to_players,
    i32 x.max_distance_to_players]

/-- Items of a `MapTerrain`. -/
def MapTerrain.layout (v : Version) (x : MapTerrain) : List Item :=
  List.flatten [
    i32 x.proportion,
    i32 x.terrain,
    i32 x.clump_count,
    i32 x.edge_spacing,
    i32 x.placement_terrain,
    i32 x.clumpiness]

/-- Items of a `MapLand`. -/
def MapLand.layout (v : Version) (x : MapLand) : List Item :=
  List.flatten [
    i32 x.land_id,
    u32 x.terrain,
    i32 x.land_spacing,
    i32 x.base_size,
    u8 x.zone,
    u8 x.placement_type,
    i16 x.padding_1,
    i32 x.base_x,
    i32 x.base_y,
    u8 x.land_proportion,
    u8 x.by_player_flag,
    i16 x.padding_2,
    i32 x.start_area_radius,
    i32 x.terrain_edge_fade,
    i32 x.clumpiness]

/-- Items of a `MapElevation`. -/
def MapElevation.layout (v : Version) (x : MapElevation) : List Item :=
  List.flatten [
    i32 x.proportion,
    i32 x.terrain,
    i32 x.clump_count,
    i32 x.base_terrain,
    i32 x.base_elevation,
    i32 x.tile_spacing]

/-- Items of a `MapInfo`. -/
def MapInfo.layout (v : Version) (x : MapInfo) : List Item :=
  List.flatten [
    i32 x.map_id,
    i32 x.border_south_west,
    i32 x.border_north_west,
    i32 x.border_north_east,
    i32 x.border_south_east,
    i32 x.border_usage,
    i32 x.water_shape,
    i32 x.base_terrain,
    i32 x.land_coverage,
    i32 x.unused_id,
    u32 x.map_lands_size,
    i32 x.map_lands_ptr,
    each (MapLand.layout v) x.map_lands,
    u32 x.map_terrains_size,
    i32 x.map_terrains_ptr,
    each (MapTerrain.layout v) x.map_terrains,
    u32 x.map_units_size,
    i32 x.map_units_ptr,
    each (MapUnit.layout v) x.map_units,
    u32 x.map_elevations_size,
    i32 x.map_elevations_ptr,
    each (MapElevation.layout v) x.map_elevations]

/-- Items of a `RandomMaps`. -/
def RandomMaps.layout (v : Version) (x : RandomMaps) : List Item :=
  List.flatten [
    requires (x.map_info_1.length = x.map_info_2.length) .assertionError,
    countU32 x.map_info_1,
    i32 x.random_maps_ptr,
    each (MapInfo.layout v) x.map_info_1,
    each (MapInfo.layout v) x.map_info_2]

/-- Items of a `ResearchResourceCost`. -/
def ResearchResourceCost.layout (v : Version) (x : ResearchResourceCost) : List Item :=
  List.flatten [
    i16 x.type,
    i16 x.amount,
    u8 x.flag]

/-- Items of a `ResearchLocation`. -/
def ResearchLocation.layout (v : Version) (x : ResearchLocation) : List Item :=
  List.flatten [
    i16 x.location_id,
    i16 x.research_time,
    u8 x.button_id,
    i32 x.hot_key_id]

/-- The research location that a file before 8.8 has room for: the first one, or a default if there is none. -/
def Tech.location84 (x : Tech) : ResearchLocation :=
  match x.research_locations with
  | [] => { location_id := -1, research_time := 0, button_id := 0, hot_key_id := -1 }
  | r :: _ => r

/-- Items of a `Tech`: before 8.8 the fields of a single research location are spread over the record. -/
def Tech.layout (v : Version) (x : Tech) : List Item :=
  if 88 ≤ v.num then List.flatten [
    each i16 x.required_techs,
    each (ResearchResourceCost.layout v) x.resource_costs,
    i16 x.required_tech_count,
    i16 x.civ,
    i16 x.full_tech_mode,
    i32 x.language_dll_name,
    i32 x.language_dll_description,
    i16 x.effect_id,
    i16 x.type,
    i16 x.icon_id,
    i32 x.language_dll_help,
    i32 x.language_dll_tech_tree,
    text x.name,
    u8 x.repeatable,
    countI16 x.research_locations,
    each (ResearchLocation.layout v) x.research_locations]
  else List.flatten [
    each i16 x.required_techs,
    each (ResearchResourceCost.layout v) x.resource_costs,
    i16 x.required_tech_count,
    i16 x.civ,
    i16 x.full_tech_mode,
    i16 (x.location84.location_id),
    i32 x.language_dll_name,
    i32 x.language_dll_description,
    i16 (x.location84.research_time),
    i16 x.effect_id,
    i16 x.type,
    i16 x.icon_id,
    u8 (x.location84.button_id),
    i32 x.language_dll_help,
    i32 x.language_dll_tech_tree,
    i32 (x.location84.hot_key_id),
    text x.name,
    u8 x.repeatable]

/-- Items of a `Common`. -/
def Common.layout (v : Version) (x : Common) : List Item :=
  List.flatten [
    i32 x.slots_used,
    each i32 x.unit_research,
    each i32 x.mode]

/-- Items of a `TechTreeAge`. -/
def TechTreeAge.layout (v : Version) (x : TechTreeAge) : List Item :=
  List.flatten [
    i32 x.id,
    u8 x.status,
    countU8 x.buildings,
    each i32 x.buildings,
    countU8 x.units,
    each i32 x.units,
    countU8 x.techs,
    each i32 x.techs,
    Common.layout v x.common,
    u8 x.num_building_levels,
    each u8 x.buildings_per_zone,
    each u8 x.group_length_per_zone,
    u8 x.max_age_length,
    i32 x.line_mode]

/-- Items of a `BuildingConnection`. -/
def BuildingConnection.layout (v : Version) (x : BuildingConnection) : List Item :=
  List.flatten [
    i32 x.id,
    u8 x.status,
    countU8 x.buildings,
    each i32 x.buildings,
    countU8 x.units,
    each i32 x.units,
    countU8 x.techs,
    each i32 x.techs,
    Common.layout v x.common,
    u8 x.location_in_age,
    each u8 x.units_techs_total,
    each u8 x.units_techs_first,
    i32 x.line_mode,
    i32 x.enabling_research]

/-- Items of a `UnitConnection`. -/
def UnitConnection.layout (v : Version) (x : UnitConnection) : List Item :=
  List.flatten [
    i32 x.id,
    u8 x.status,
    i32 x.upper_building,
    Common.layout v x.common,
    i32 x.vertical_line,
    countU8 x.units,
    each i32 x.units,
    i32 x.location_in_age,
    i32 x.required_research,
    i32 x.line_mode,
    i32 x.enabling_research]

/-- Items of a `ResearchConnection`. -/
def ResearchConnection.layout (v : Version) (x : ResearchConnection) : List Item :=
  List.flatten [
    i32 x.id,
    u8 x.status,
    i32 x.upper_building,
    countU8 x.buildings,
    each i32 x.buildings,
    countU8 x.units,
    each i32 x.units,
    countU8 x.techs,
    each i32 x.techs,
    Common.layout v x.common,
    i32 x.vertical_line,
    i32 x.location_in_age,
    i32 x.line_mode]

/-- Items of a `TechTree`. -/
def TechTree.layout (v : Version) (x : TechTree) : List Item :=
  List.flatten [
    countU8 x.tech_tree_ages,
    countU8 x.building_connections,
    countU8 x.unit_connections,
    countU8 x.research_connections,
    i32 x.total_unit_tech_groups,
    each (TechTreeAge.layout v) x.tech_tree_ages,
    each (BuildingConnection.layout v) x.building_connections,
    each (UnitConnection.layout v) x.unit_connections,
    each (ResearchConnection.layout v) x.research_connections]

/-- Items of a `Task`: `enabled` exists since 8.8 only. -/
def Task.layout (v : Version) (x : Task) : List Item :=
  block (if 88 ≤ v.num then "hhbhhhhhhhhfffbfbbhhbbbhhhhhhllh" else "hhbhhhhhhhhfffbfbbhhbbbhhhhhhll")
    ([.int x.task_type, .int x.id, .int x.is_default, .int x.action_type, .int x.class_id, .int x.unit_id, .int x.terrain_id,
      .int x.resource_in, .int x.resource_multiplier, .int x.resource_out, .int x.unused_resource, .float x.work_value_1,
      .float x.work_value_2, .float x.work_range, .int x.auto_search_targets, .float x.search_wait_time, .int
      x.enable_targeting, .int x.combat_level_flag, .int x.gather_type, .int x.work_flag_2, .int x.target_diplomacy, .int
      x.carry_check, .int x.pick_for_construction, .int x.moving_graphic_id, .int x.proceeding_graphic_id, .int
      x.working_graphic_id, .int x.carrying_graphic_id, .int x.resource_gathering_sound_id, .int x.resource_deposit_sound_id,
      .int x.wwise_resource_gathering_sound_id, .int x.wwise_resource_deposit_sound_id]
      ++ if 88 ≤ v.num then [.int x.enabled] else [])

/-- Items of a `UnitHeaders`. -/
def UnitHeaders.layout (v : Version) (x : UnitHeaders) : List Item :=
  u8 x.exists_ ++ part (x.exists_ ≠ 0) (fun tasks => countI16 tasks ++ each (Task.layout v) tasks) x.task_list

/-- Items of a `ResourceStorage`. -/
def ResourceStorage.layout (v : Version) (x : ResourceStorage) : List Item :=
  block "hfb" ([.int x.type, .float x.amount, .int x.flag])

/-- Items of a `DamageGraphic`. -/
def DamageGraphic.layout (v : Version) (x : DamageGraphic) : List Item :=
  block "hhb" ([.int x.graphic_id, .int x.damage_percent, .int x.apply_mode])

/-- Items of a `DeadFish`. -/
def DeadFish.layout (v : Version) (x : DeadFish) : List Item :=
  block "hhfbhbfbffffff" ([.int x.walking_graphic, .int x.running_graphic, .float x.rotation_speed, .int x.old_size_class,
    .int x.tracking_unit, .int x.tracking_unit_mode, .float x.tracking_unit_density, .int x.old_move_algorithm, .float
    x.turn_radius, .float x.turn_radius_speed, .float x.max_yaw_per_second_moving, .float x.stationary_yaw_revolution_time,
    .float x.max_yaw_per_second_stationary, .float x.min_collision_size_multiplier])

/-- Items of a `Bird`: the number of drop sites is stored since 7.8. -/
def Bird.layout (v : Version) (x : Bird) : List Item :=
  List.flatten [
    i16 x.default_task_id,
    f32 x.search_radius,
    f32 x.work_rate,
    since v 78 (countI16 x.drop_sites),
    each i16 x.drop_sites,
    u8 x.task_swap_group,
    i16 x.attack_sound,
    i16 x.move_sound,
    i32 x.wwise_attack_sound_id,
    i32 x.wwise_move_sound_id,
    u8 x.run_pattern,
    countI16 x.tasks,
    each (Task.layout v) x.tasks]

/-- Items of a `AttackOrArmor`. -/
def AttackOrArmor.layout (v : Version) (x : AttackOrArmor) : List Item :=
  block "hh" ([.int x.class_, .int x.amount])

/-- Items of a `Type50`: the last five exist since 8.4. -/
def Type50.layout (v : Version) (x : Type50) : List Item :=
  List.flatten [
    i16 x.base_armor,
    countI16 x.attacks,
    each (AttackOrArmor.layout v) x.attacks,
    countI16 x.armours,
    each (AttackOrArmor.layout v) x.armours,
    i16 x.defense_terrain_bonus,
    f32 x.bonus_damage_resistance,
    f32 x.max_range,
    f32 x.blast_width,
    f32 x.reload_time,
    i16 x.projectile_unit_id,
    i16 x.accuracy_percent,
    u8 x.break_off_combat,
    i16 x.frame_delay,
    each f32 x.graphic_displacement,
    u8 x.blast_attack_level,
    f32 x.min_range,
    f32 x.accuracy_dispersion,
    i16 x.attack_graphic,
    i16 x.displayed_melee_armour,
    i16 x.displayed_attack,
    f32 x.displayed_range,
    f32 x.displayed_reload_time,
    f32 x.blast_damage,
    since v 84 (List.flatten [f32 x.damage_reflection, f32 x.friendly_fire_damage, i16 x.interrupt_frame, f32
      x.garrison_firepower, i16 x.attack_graphic_2])]

/-- Items of a `Projectile`. -/
def Projectile.layout (v : Version) (x : Projectile) : List Item :=
  block "bbbbbf" ([.int x.projectile_type, .int x.smart_mode, .int x.hit_mode, .int x.vanish_mode, .int
    x.area_effect_specials, .float x.projectile_arc])

/-- Items of a `ResourceCost`. -/
def ResourceCost.layout (v : Version) (x : ResourceCost) : List Item :=
  block "hhh" ([.int x.type, .int x.amount, .int x.flag])

/-- Items of a `TrainLocation`: the hot key exists since 8.8. -/
def TrainLocation.layout (v : Version) (x : TrainLocation) : List Item :=
  if 88 ≤ v.num then block "hhbl" [.int x.train_time, .int x.unit_id, .int x.button_id, .int x.hot_key_id]
  else block "hhb" [.int x.train_time, .int x.unit_id, .int x.button_id]

/-- Items of a `Creatable`: before 8.8 there is exactly one train location, spread over the record; some fields exist
since 8.4. -/
def Creatable.layout (v : Version) (x : Creatable) : List Item :=
  each (ResourceCost.layout v) x.resource_costs ++
  if 88 ≤ v.num then List.flatten [
    countI16 x.train_locations,
    each (TrainLocation.layout v) x.train_locations,
    block "ffbblhhhhffhhhlbfhllhffffbfffllbh" ([.float x.rear_attack_modifier, .float x.flank_attack_modifier, .int x.creatable_type, .int x.hero_mode, .int
        x.garrison_graphic, .int x.spawning_graphic, .int x.upgrade_graphic, .int x.hero_glow_graphic, .int
        x.idle_attack_graphic, .float x.max_charge, .float x.recharge_rate, .int x.charge_event, .int x.charge_type, .int
        x.charge_target, .int x.charge_projectile_unit, .int x.attack_priority, .float x.invulnerability_level, .int
        x.button_icon_id, .int x.button_short_tooltip_id, .int x.button_extended_tooltip_id, .int x.button_hotkey_action,
        .float x.min_conversion_time_mod, .float x.max_conversion_time_mod, .float x.conversion_chance_mod, .float
        x.total_projectiles, .int x.max_total_projectiles] ++ x.projectile_spawning_area.map Val.float ++ [.int
        x.secondary_projectile_unit, .int x.special_graphic, .int x.special_ability, .int x.displayed_pierce_armour])]
  else match x.train_locations with
    | [] => requires False .indexError
    | t :: _ =>
      if 84 ≤ v.num then block "hhbffbblhhhhffhhhlbfhllhffffbfffllbh"
        ([.int t.train_time, .int t.unit_id, .int t.button_id, .float x.rear_attack_modifier, .float x.flank_attack_modifier,
        .int x.creatable_type, .int x.hero_mode, .int x.garrison_graphic, .int x.spawning_graphic, .int x.upgrade_graphic,
        .int x.hero_glow_graphic, .int x.idle_attack_graphic, .float x.max_charge, .float x.recharge_rate, .int
        x.charge_event, .int x.charge_type, .int x.charge_target, .int x.charge_projectile_unit, .int x.attack_priority,
        .float x.invulnerability_level, .int x.button_icon_id, .int x.button_short_tooltip_id, .int
        x.button_extended_tooltip_id, .int x.button_hotkey_action, .float x.min_conversion_time_mod, .float
        x.max_conversion_time_mod, .float x.conversion_chance_mod, .float x.total_projectiles, .int x.max_total_projectiles]
        ++ x.projectile_spawning_area.map Val.float ++ [.int x.secondary_projectile_unit, .int x.special_graphic, .int
        x.special_ability, .int x.displayed_pierce_armour])
      else block "hhbffbblhhhffhhffffbfffllbh"
        ([.int t.train_time, .int t.unit_id, .int t.button_id, .float x.rear_attack_modifier, .float x.flank_attack_modifier,
        .int x.creatable_type, .int x.hero_mode, .int x.garrison_graphic, .int x.spawning_graphic, .int x.upgrade_graphic,
        .int x.hero_glow_graphic, .float x.max_charge, .float x.recharge_rate, .int x.charge_event, .int x.charge_type, .float
        x.min_conversion_time_mod, .float x.max_conversion_time_mod, .float x.conversion_chance_mod, .float
        x.total_projectiles, .int x.max_total_projectiles] ++ x.projectile_spawning_area.map Val.float ++ [.int
        x.secondary_projectile_unit, .int x.special_graphic, .int x.special_ability, .int x.displayed_pierce_armour])

/-- Items of a `BuildingAnnex`. -/
def BuildingAnnex.layout (v : Version) (x : BuildingAnnex) : List Item :=
  block "hff" ([.int x.unit_id, .float x.misplacement_x, .float x.misplacement_y])

/-- Items of a `Building`. -/
def Building.layout (v : Version) (x : Building) : List Item :=
  List.flatten [
    block "hhhhhhbhbhhhhb" ([.int x.construction_graphic_id, .int x.snow_graphic_id, .int x.destruction_graphic_id, .int
      x.destruction_rubble_graphic_id, .int x.researching_graphic, .int x.research_completed_graphic, .int x.adjacent_mode,
      .int x.graphics_angle, .int x.disappears_when_built, .int x.stack_unit_id, .int x.foundation_terrain_id, .int
      x.old_overlap_id, .int x.tech_id, .int x.can_burn]),
    each (BuildingAnnex.layout v) x.annexes,
    block "hhhhllbffhbbbbbb" ([.int x.head_unit, .int x.transform_unit, .int x.transform_sound, .int x.construction_sound,
      .int x.wwise_transform_sound_id, .int x.wwise_construction_sound_id, .int x.garrison_type, .float x.garrison_heal_rate,
      .float x.garrison_repair_rate, .int x.pile_unit] ++ x.looting_table.map Val.int)]

/-- Items of a `Unit`: the hot key is stored in the unit before 8.8; which of the optional parts are written depends on the
unit type. -/
def Unit.layout (v : Version) (x : Unit) : List Item :=
  List.flatten [
    block (if 88 ≤ v.num then "bhllhhhhhbhfbfffhhhhbbhbhbbhhhhffbbhbhfbbbbbfbllbbbbbbbbbhbbfffll" else
      "bhllhhhhhbhfbfffhhhhbbhbhbbhhhhffbbhbhfbbbbbfblllbbbbbbbbbhbbfffll") ([.int x.type, .int x.id, .int
      x.language_dll_name, .int x.language_dll_creation, .int x.class_] ++ x.standing_graphic.map Val.int ++ [.int
      x.dying_graphic, .int x.undead_graphic, .int x.undead_mode, .int x.hit_points, .float x.line_of_sight, .int
      x.garrison_capacity, .float x.collision_size_x, .float x.collision_size_y, .float x.collision_size_z, .int
      x.train_sound, .int x.damage_sound, .int x.dead_unit_id, .int x.blood_unit_id, .int x.sort_number, .int
      x.can_be_built_on, .int x.icon_id, .int x.hide_in_editor, .int x.old_portrait_pict, .int x.enabled, .int x.disabled] ++
      x.placement_side_terrain.map Val.int ++ x.placement_terrain.map Val.int ++ x.clearance_size.map Val.float ++ [.int
      x.hill_mode, .int x.fog_visibility, .int x.terrain_restriction, .int x.fly_mode, .int x.resource_capacity, .float
      x.resource_decay, .int x.blast_defense_level, .int x.combat_level, .int x.interaction_mode, .int x.minimap_mode, .int
      x.interface_kind, .float x.multiple_attribute_mode, .int x.minimap_color, .int x.language_dll_help, .int
      x.language_dll_hotkey_text] ++ (if 88 ≤ v.num then [] else [.int x.hot_key]) ++ [.int x.recyclable, .int
      x.enable_auto_gather, .int x.create_doppelganger_on_death, .int x.resource_gather_group, .int x.occlusion_mode, .int
      x.obstruction_type, .int x.obstruction_class, .int x.trait, .int x.civilization, .int x.nothing, .int
      x.selection_effect, .int x.editor_selection_colour, .float x.outline_size_x, .float x.outline_size_y, .float
      x.outline_size_z, .int x.scenario_triggers_1, .int x.scenario_triggers_2]),
    each (ResourceStorage.layout v) x.resource_storages,
    countU8 x.damage_graphics,
    each (DamageGraphic.layout v) x.damage_graphics,
    i16 x.selection_sound,
    i16 x.dying_sound,
    i32 x.wwise_train_sound_id,
    i32 x.wwise_damage_sound_id,
    i32 x.wwise_selection_sound_id,
    i32 x.wwise_dying_sound_id,
    u8 x.old_attack_reaction,
    u8 x.convert_terrain,
    text x.name,
    i16 x.copy_id,
    i16 x.base_id,
    part (x.type ≠ 90 ∧ 20 ≤ x.type) f32 x.speed,
    part (x.type ≠ 90 ∧ 30 ≤ x.type) (DeadFish.layout v) x.dead_fish,
    part (x.type ≠ 90 ∧ 40 ≤ x.type) (Bird.layout v) x.bird,
    part (x.type ≠ 90 ∧ 50 ≤ x.type) (Type50.layout v) x.type_50,
    part (x.type = 60) (Projectile.layout v) x.projectile,
    part (x.type ≠ 90 ∧ 70 ≤ x.type) (Creatable.layout v) x.creatable,
    part (x.type = 80) (Building.layout v) x.building]

/-- Items of a `Civ`. -/
def Civ.layout (v : Version) (x : Civ) : List Item :=
  List.flatten [
    u8 x.player_type,
    text x.name,
    countI16 x.resources,
    i16 x.tech_tree_id,
    i16 x.team_bonus_id,
    each f32 x.resources,
    u8 x.icon_set,
    countI16 x.units,
    pointers x.units,
    eachPresent (Unit.layout v) x.units]

/-- The number of terrains: that of the first terrain restriction. -/
def DatFile.terrainCount (x : DatFile) : Nat :=
  match x.terrain_restrictions with
  | [] => 0
  | r :: _ => r.passable_buildable_dmg_multiplier.length

/-- The number of terrains; it has no meaning if there are no terrain restrictions. -/
def DatFile.terrainItems (x : DatFile) : List Item :=
  if x.terrain_restrictions = [] then [.idle 2] else [.count 2 true x.terrainCount]

/-- Items of a whole file of version `v`. -/
def DatFile.layoutAt (v : Version) (x : DatFile) : List Item :=
  List.flatten [
    requires (x.float_ptr_terrain_tables.length = x.terrain_pass_graphic_pointers.length) .assertionError,
    requires (x.terrain_pass_graphic_pointers.length = x.terrain_restrictions.length) .assertionError,
    [.fixedText 8 x.version],
    countI16 x.terrain_restrictions,
    x.terrainItems,
    each i32 x.float_ptr_terrain_tables,
    each i32 x.terrain_pass_graphic_pointers,
    each (TerrainRestriction.layout v) x.terrain_restrictions,
    countI16 x.player_colours,
    each (PlayerColour.layout v) x.player_colours,
    countI16 x.sounds,
    each (Sound.layout v) x.sounds,
    countI16 x.graphics,
    pointers x.graphics,
    eachPresent (Graphic.layout v) x.graphics,
    TerrainBlock.layout v x.terrain_block,
    RandomMaps.layout v x.random_maps,
    countI32 x.effects,
    each (Effect.layout v) x.effects,
    countI32 x.unit_headers,
    each (UnitHeaders.layout v) x.unit_headers,
    countI16 x.civs,
    each (Civ.layout v) x.civs,
    countI16 x.techs,
    each (Tech.layout v) x.techs,
    i32 x.time_slice,
    i32 x.unit_kill_rate,
    i32 x.unit_kill_total,
    i32 x.unit_hit_point_rate,
    i32 x.unit_hit_point_total,
    i32 x.razing_kill_rate,
    i32 x.razing_kill_total,
    TechTree.layout v x.tech_tree]

/-- The version strings that can be written (`UNDEFINED` can, but is not accepted when reading). -/
def writableVersions : List (PyStr × Version) := (lit "UNDEFINED", .UNDEFINED) :: versionNames

/-- Items of a whole file: the version string decides the version. -/
def DatFile.layout (x : DatFile) : List Item :=
  match writableVersions.lookup x.version with
  | none => requires False .valueError
  | some v => x.layoutAt v

end Genie
