import Verif.Spec.Types
import Verif.Py.Utf8
/-!
# The class definitions

The fields of every class with their annotations, as they stand in `/repo/src/genieutils`.  (Generated by `tools/gen_types.py`.)
-/

namespace Genie

/-- `class EffectCommand` — `/repo/src/genieutils/effect.py:7-13`. -/
def EffectCommand.annotations : List (PyStr × Ann) :=
  [(lit "type", .int),
   (lit "a", .int),
   (lit "b", .int),
   (lit "c", .int),
   (lit "d", .float)]

/-- `class Effect` — `/repo/src/genieutils/effect.py:35-38`. -/
def Effect.annotations : List (PyStr × Ann) :=
  [(lit "name", .str),
   (lit "effect_commands", .list (.cls (lit "EffectCommand")))]

/-- `class SoundItem` — `/repo/src/genieutils/sound.py:7-13`. -/
def SoundItem.annotations : List (PyStr × Ann) :=
  [(lit "filename", .str),
   (lit "resource_id", .int),
   (lit "probability", .int),
   (lit "civilization", .int),
   (lit "icon_set", .int)]

/-- `class Sound` — `/repo/src/genieutils/sound.py:35-41`. -/
def Sound.annotations : List (PyStr × Ann) :=
  [(lit "id", .int),
   (lit "play_delay", .int),
   (lit "cache_time", .int),
   (lit "total_probability", .int),
   (lit "items", .list (.cls (lit "SoundItem")))]

/-- `class PlayerColour` — `/repo/src/genieutils/playercolour.py:7-17`. -/
def PlayerColour.annotations : List (PyStr × Ann) :=
  [(lit "id", .int),
   (lit "player_color_base", .int),
   (lit "unit_outline_color", .int),
   (lit "unit_selection_color_1", .int),
   (lit "unit_selection_color_2", .int),
   (lit "minimap_color", .int),
   (lit "minimap_color_2", .int),
   (lit "minimap_color_3", .int),
   (lit "statistics_text", .int)]

/-- `class GraphicDelta` — `/repo/src/genieutils/graphic.py:7-15`. -/
def GraphicDelta.annotations : List (PyStr × Ann) :=
  [(lit "graphic_id", .int),
   (lit "padding_1", .int),
   (lit "sprite_ptr", .int),
   (lit "offset_x", .int),
   (lit "offset_y", .int),
   (lit "display_angle", .int),
   (lit "padding_2", .int)]

/-- `class GraphicAngleSound` — `/repo/src/genieutils/graphic.py:41-51`. -/
def GraphicAngleSound.annotations : List (PyStr × Ann) :=
  [(lit "frame_num", .int),
   (lit "sound_id", .int),
   (lit "wwise_sound_id", .int),
   (lit "frame_num_2", .int),
   (lit "sound_id_2", .int),
   (lit "wwise_sound_id_2", .int),
   (lit "frame_num_3", .int),
   (lit "sound_id_3", .int),
   (lit "wwise_sound_id_3", .int)]

/-- `class Graphic` — `/repo/src/genieutils/graphic.py:81-106`. -/
def Graphic.annotations : List (PyStr × Ann) :=
  [(lit "name", .str),
   (lit "file_name", .str),
   (lit "particle_effect_name", .str),
   (lit "slp", .int),
   (lit "is_loaded", .int),
   (lit "old_color_flag", .int),
   (lit "layer", .int),
   (lit "player_color", .int),
   (lit "transparent_selection", .int),
   (lit "coordinates", .tuple [.int, .int, .int, .int]),
   (lit "sound_id", .int),
   (lit "wwise_sound_id", .int),
   (lit "angle_sounds_used", .int),
   (lit "frame_count", .int),
   (lit "angle_count", .int),
   (lit "speed_multiplier", .float),
   (lit "frame_duration", .float),
   (lit "replay_delay", .float),
   (lit "sequence_type", .int),
   (lit "id", .int),
   (lit "mirroring_mode", .int),
   (lit "editor_flag", .int),
   (lit "deltas", .list (.cls (lit "GraphicDelta"))),
   (lit "angle_sounds", .list (.cls (lit "GraphicAngleSound")))]

/-- `class TerrainPassGraphic` — `/repo/src/genieutils/terrainrestriction.py:7-12`. -/
def TerrainPassGraphic.annotations : List (PyStr × Ann) :=
  [(lit "exit_tile_sprite_id", .int),
   (lit "enter_tile_sprite_id", .int),
   (lit "walk_tile_sprite_id", .int),
   (lit "walk_sprite_rate", .int)]

/-- `class TerrainRestriction` — `/repo/src/genieutils/terrainrestriction.py:32-35`. -/
def TerrainRestriction.annotations : List (PyStr × Ann) :=
  [(lit "passable_buildable_dmg_multiplier", .list (.float)),
   (lit "terrain_pass_graphics", .list (.cls (lit "TerrainPassGraphic")))]

/-- `class FrameData` — `/repo/src/genieutils/terrainblock.py:7-11`. -/
def FrameData.annotations : List (PyStr × Ann) :=
  [(lit "frame_count", .int),
   (lit "angle_count", .int),
   (lit "shape_id", .int)]

/-- `class Terrain` — `/repo/src/genieutils/terrainblock.py:29-68`. -/
def Terrain.annotations : List (PyStr × Ann) :=
  [(lit "enabled", .int),
   (lit "random", .int),
   (lit "is_water", .int),
   (lit "hide_in_editor", .int),
   (lit "string_id", .int),
   (lit "name", .str),
   (lit "name_2", .str),
   (lit "slp", .int),
   (lit "shape_ptr", .int),
   (lit "sound_id", .int),
   (lit "wwise_sound_id", .int),
   (lit "wwise_sound_stop_id", .int),
   (lit "blend_priority", .int),
   (lit "blend_type", .int),
   (lit "overlay_mask_name", .str),
   (lit "colors", .tuple [.int, .int, .int]),
   (lit "cliff_colors", .tuple [.int, .int]),
   (lit "passable_terrain", .int),
   (lit "impassable_terrain", .int),
   (lit "is_animated", .int),
   (lit "animation_frames", .int),
   (lit "pause_frames", .int),
   (lit "interval", .float),
   (lit "pause_between_loops", .float),
   (lit "frame", .int),
   (lit "draw_frame", .int),
   (lit "animate_last", .float),
   (lit "frame_changed", .int),
   (lit "drawn", .int),
   (lit "frame_data", .list (.cls (lit "FrameData"))),
   (lit "terrain_to_draw", .int),
   (lit "terrain_dimensions", .tuple [.int, .int]),
   (lit "terrain_unit_masked_density", .list (.int)),
   (lit "terrain_unit_id", .list (.int)),
   (lit "terrain_unit_density", .list (.int)),
   (lit "terrain_unit_centering", .list (.int)),
   (lit "number_of_terrain_units_used", .int),
   (lit "phantom", .int)]

/-- `class TileSize` — `/repo/src/genieutils/terrainblock.py:156-160`. -/
def TileSize.annotations : List (PyStr × Ann) :=
  [(lit "width", .int),
   (lit "height", .int),
   (lit "delta_y", .int)]

/-- `class TerrainBlock` — `/repo/src/genieutils/terrainblock.py:178-213`. -/
def TerrainBlock.annotations : List (PyStr × Ann) :=
  [(lit "virtual_function_ptr", .int),
   (lit "map_pointer", .int),
   (lit "map_width", .int),
   (lit "map_height", .int),
   (lit "world_width", .int),
   (lit "world_height", .int),
   (lit "tile_sizes", .list (.cls (lit "TileSize"))),
   (lit "padding_ts", .int),
   (lit "terrains", .list (.cls (lit "Terrain"))),
   (lit "map_min_x", .float),
   (lit "map_min_y", .float),
   (lit "map_max_x", .float),
   (lit "map_max_y", .float),
   (lit "map_max_x_plus_1", .float),
   (lit "map_max_y_plus_1", .float),
   (lit "terrains_used_2", .int),
   (lit "borders_used", .int),
   (lit "max_terrain", .int),
   (lit "tile_width", .int),
   (lit "tile_height", .int),
   (lit "tile_half_height", .int),
   (lit "tile_half_width", .int),
   (lit "elev_height", .int),
   (lit "cur_row", .int),
   (lit "cur_col", .int),
   (lit "block_beg_row", .int),
   (lit "block_end_row", .int),
   (lit "block_beg_col", .int),
   (lit "block_end_col", .int),
   (lit "search_map_ptr", .int),
   (lit "search_map_rows_ptr", .int),
   (lit "any_frame_change", .int),
   (lit "map_visible_flag", .int),
   (lit "fog_flag", .int)]

/-- `class MapUnit` — `/repo/src/genieutils/randommaps.py:7-21`. -/
def MapUnit.annotations : List (PyStr × Ann) :=
  [(lit "unit", .int),
   (lit "host_terrain", .int),
   (lit "group_placing", .int),
   (lit "scale_flag", .int),
   (lit "padding_1", .int),
   (lit "objects_per_group", .int),
   (lit "fluctuation", .int),
   (lit "groups_per_player", .int),
   (lit "group_arena", .int),
   (lit "player_id", .int),
   (lit "set_place_for_all_players", .int),
   (lit "min_distance_to_players", .int),
   (lit "max_distance_to_players", .int)]

/-- `class MapTerrain` — `/repo/src/genieutils/randommaps.py:59-66`. -/
def MapTerrain.annotations : List (PyStr × Ann) :=
  [(lit "proportion", .int),
   (lit "terrain", .int),
   (lit "clump_count", .int),
   (lit "edge_spacing", .int),
   (lit "placement_terrain", .int),
   (lit "clumpiness", .int)]

/-- `class MapLand` — `/repo/src/genieutils/randommaps.py:90-106`. -/
def MapLand.annotations : List (PyStr × Ann) :=
  [(lit "land_id", .int),
   (lit "terrain", .int),
   (lit "land_spacing", .int),
   (lit "base_size", .int),
   (lit "zone", .int),
   (lit "placement_type", .int),
   (lit "padding_1", .int),
   (lit "base_x", .int),
   (lit "base_y", .int),
   (lit "land_proportion", .int),
   (lit "by_player_flag", .int),
   (lit "padding_2", .int),
   (lit "start_area_radius", .int),
   (lit "terrain_edge_fade", .int),
   (lit "clumpiness", .int)]

/-- `class MapElevation` — `/repo/src/genieutils/randommaps.py:148-155`. -/
def MapElevation.annotations : List (PyStr × Ann) :=
  [(lit "proportion", .int),
   (lit "terrain", .int),
   (lit "clump_count", .int),
   (lit "base_terrain", .int),
   (lit "base_elevation", .int),
   (lit "tile_spacing", .int)]

/-- `class MapInfo` — `/repo/src/genieutils/randommaps.py:179-202`. -/
def MapInfo.annotations : List (PyStr × Ann) :=
  [(lit "map_id", .int),
   (lit "border_south_west", .int),
   (lit "border_north_west", .int),
   (lit "border_north_east", .int),
   (lit "border_south_east", .int),
   (lit "border_usage", .int),
   (lit "water_shape", .int),
   (lit "base_terrain", .int),
   (lit "land_coverage", .int),
   (lit "unused_id", .int),
   (lit "map_lands_size", .int),
   (lit "map_lands_ptr", .int),
   (lit "map_lands", .list (.cls (lit "MapLand"))),
   (lit "map_terrains_size", .int),
   (lit "map_terrains_ptr", .int),
   (lit "map_terrains", .list (.cls (lit "MapTerrain"))),
   (lit "map_units_size", .int),
   (lit "map_units_ptr", .int),
   (lit "map_units", .list (.cls (lit "MapUnit"))),
   (lit "map_elevations_size", .int),
   (lit "map_elevations_ptr", .int),
   (lit "map_elevations", .list (.cls (lit "MapElevation")))]

/-- `class RandomMaps` — `/repo/src/genieutils/randommaps.py:280-284`. -/
def RandomMaps.annotations : List (PyStr × Ann) :=
  [(lit "random_maps_ptr", .int),
   (lit "map_info_1", .list (.cls (lit "MapInfo"))),
   (lit "map_info_2", .list (.cls (lit "MapInfo")))]

/-- `class ResearchResourceCost` — `/repo/src/genieutils/tech.py:7-11`. -/
def ResearchResourceCost.annotations : List (PyStr × Ann) :=
  [(lit "type", .int),
   (lit "amount", .int),
   (lit "flag", .int)]

/-- `class ResearchLocation` — `/repo/src/genieutils/tech.py:29-34`. -/
def ResearchLocation.annotations : List (PyStr × Ann) :=
  [(lit "location_id", .int),
   (lit "research_time", .int),
   (lit "button_id", .int),
   (lit "hot_key_id", .int)]

/-- `class Tech` — `/repo/src/genieutils/tech.py:54-70`. -/
def Tech.annotations : List (PyStr × Ann) :=
  [(lit "required_techs", .tuple [.int, .int, .int, .int, .int, .int]),
   (lit "resource_costs", .tuple [.cls (lit "ResearchResourceCost"), .cls (lit "ResearchResourceCost"), .cls (lit "ResearchResourceCost")]),
   (lit "required_tech_count", .int),
   (lit "civ", .int),
   (lit "full_tech_mode", .int),
   (lit "language_dll_name", .int),
   (lit "language_dll_description", .int),
   (lit "effect_id", .int),
   (lit "type", .int),
   (lit "icon_id", .int),
   (lit "language_dll_help", .int),
   (lit "language_dll_tech_tree", .int),
   (lit "name", .str),
   (lit "repeatable", .int),
   (lit "research_locations", .list (.cls (lit "ResearchLocation")))]

/-- `class Common` — `/repo/src/genieutils/techtree.py:7-11`. -/
def Common.annotations : List (PyStr × Ann) :=
  [(lit "slots_used", .int),
   (lit "unit_research", .tuple [.int, .int, .int, .int, .int, .int, .int, .int, .int, .int]),
   (lit "mode", .tuple [.int, .int, .int, .int, .int, .int, .int, .int, .int, .int])]

/-- `class TechTreeAge` — `/repo/src/genieutils/techtree.py:29-41`. -/
def TechTreeAge.annotations : List (PyStr × Ann) :=
  [(lit "id", .int),
   (lit "status", .int),
   (lit "buildings", .list (.int)),
   (lit "units", .list (.int)),
   (lit "techs", .list (.int)),
   (lit "common", .cls (lit "Common")),
   (lit "num_building_levels", .int),
   (lit "buildings_per_zone", .tuple [.int, .int, .int, .int, .int, .int, .int, .int, .int, .int]),
   (lit "group_length_per_zone", .tuple [.int, .int, .int, .int, .int, .int, .int, .int, .int, .int]),
   (lit "max_age_length", .int),
   (lit "line_mode", .int)]

/-- `class BuildingConnection` — `/repo/src/genieutils/techtree.py:92-104`. -/
def BuildingConnection.annotations : List (PyStr × Ann) :=
  [(lit "id", .int),
   (lit "status", .int),
   (lit "buildings", .list (.int)),
   (lit "units", .list (.int)),
   (lit "techs", .list (.int)),
   (lit "common", .cls (lit "Common")),
   (lit "location_in_age", .int),
   (lit "units_techs_total", .tuple [.int, .int, .int, .int, .int]),
   (lit "units_techs_first", .tuple [.int, .int, .int, .int, .int]),
   (lit "line_mode", .int),
   (lit "enabling_research", .int)]

/-- `class UnitConnection` — `/repo/src/genieutils/techtree.py:155-166`. -/
def UnitConnection.annotations : List (PyStr × Ann) :=
  [(lit "id", .int),
   (lit "status", .int),
   (lit "upper_building", .int),
   (lit "common", .cls (lit "Common")),
   (lit "vertical_line", .int),
   (lit "units", .list (.int)),
   (lit "location_in_age", .int),
   (lit "required_research", .int),
   (lit "line_mode", .int),
   (lit "enabling_research", .int)]

/-- `class ResearchConnection` — `/repo/src/genieutils/techtree.py:210-221`. -/
def ResearchConnection.annotations : List (PyStr × Ann) :=
  [(lit "id", .int),
   (lit "status", .int),
   (lit "upper_building", .int),
   (lit "buildings", .list (.int)),
   (lit "units", .list (.int)),
   (lit "techs", .list (.int)),
   (lit "common", .cls (lit "Common")),
   (lit "vertical_line", .int),
   (lit "location_in_age", .int),
   (lit "line_mode", .int)]

/-- `class TechTree` — `/repo/src/genieutils/techtree.py:269-275`. -/
def TechTree.annotations : List (PyStr × Ann) :=
  [(lit "total_unit_tech_groups", .int),
   (lit "tech_tree_ages", .list (.cls (lit "TechTreeAge"))),
   (lit "building_connections", .list (.cls (lit "BuildingConnection"))),
   (lit "unit_connections", .list (.cls (lit "UnitConnection"))),
   (lit "research_connections", .list (.cls (lit "ResearchConnection")))]

/-- `class Task` — `/repo/src/genieutils/task.py:14-47`. -/
def Task.annotations : List (PyStr × Ann) :=
  [(lit "task_type", .int),
   (lit "id", .int),
   (lit "is_default", .int),
   (lit "action_type", .int),
   (lit "class_id", .int),
   (lit "unit_id", .int),
   (lit "terrain_id", .int),
   (lit "resource_in", .int),
   (lit "resource_multiplier", .int),
   (lit "resource_out", .int),
   (lit "unused_resource", .int),
   (lit "work_value_1", .float),
   (lit "work_value_2", .float),
   (lit "work_range", .float),
   (lit "auto_search_targets", .int),
   (lit "search_wait_time", .float),
   (lit "enable_targeting", .int),
   (lit "combat_level_flag", .int),
   (lit "gather_type", .int),
   (lit "work_flag_2", .int),
   (lit "target_diplomacy", .int),
   (lit "carry_check", .int),
   (lit "pick_for_construction", .int),
   (lit "moving_graphic_id", .int),
   (lit "proceeding_graphic_id", .int),
   (lit "working_graphic_id", .int),
   (lit "carrying_graphic_id", .int),
   (lit "resource_gathering_sound_id", .int),
   (lit "resource_deposit_sound_id", .int),
   (lit "wwise_resource_gathering_sound_id", .int),
   (lit "wwise_resource_deposit_sound_id", .int),
   (lit "enabled", .int)]

/-- `class ResourceStorage` — `/repo/src/genieutils/unit.py:12-16`. -/
def ResourceStorage.annotations : List (PyStr × Ann) :=
  [(lit "type", .int),
   (lit "amount", .float),
   (lit "flag", .int)]

/-- `class DamageGraphic` — `/repo/src/genieutils/unit.py:36-40`. -/
def DamageGraphic.annotations : List (PyStr × Ann) :=
  [(lit "graphic_id", .int),
   (lit "damage_percent", .int),
   (lit "apply_mode", .int)]

/-- `class DeadFish` — `/repo/src/genieutils/unit.py:61-76`. -/
def DeadFish.annotations : List (PyStr × Ann) :=
  [(lit "walking_graphic", .int),
   (lit "running_graphic", .int),
   (lit "rotation_speed", .float),
   (lit "old_size_class", .int),
   (lit "tracking_unit", .int),
   (lit "tracking_unit_mode", .int),
   (lit "tracking_unit_density", .float),
   (lit "old_move_algorithm", .int),
   (lit "turn_radius", .float),
   (lit "turn_radius_speed", .float),
   (lit "max_yaw_per_second_moving", .float),
   (lit "stationary_yaw_revolution_time", .float),
   (lit "max_yaw_per_second_stationary", .float),
   (lit "min_collision_size_multiplier", .float)]

/-- `class Bird` — `/repo/src/genieutils/unit.py:131-143`. -/
def Bird.annotations : List (PyStr × Ann) :=
  [(lit "default_task_id", .int),
   (lit "search_radius", .float),
   (lit "work_rate", .float),
   (lit "drop_sites", .list (.int)),
   (lit "task_swap_group", .int),
   (lit "attack_sound", .int),
   (lit "move_sound", .int),
   (lit "wwise_attack_sound_id", .int),
   (lit "wwise_move_sound_id", .int),
   (lit "run_pattern", .int),
   (lit "tasks", .list (.cls (lit "Task")))]

/-- `class AttackOrArmor` — `/repo/src/genieutils/unit.py:198-201`. -/
def AttackOrArmor.annotations : List (PyStr × Ann) :=
  [(lit "class_", .int),
   (lit "amount", .int)]

/-- `class Type50` — `/repo/src/genieutils/unit.py:215-243`. -/
def Type50.annotations : List (PyStr × Ann) :=
  [(lit "base_armor", .int),
   (lit "attacks", .list (.cls (lit "AttackOrArmor"))),
   (lit "armours", .list (.cls (lit "AttackOrArmor"))),
   (lit "defense_terrain_bonus", .int),
   (lit "bonus_damage_resistance", .float),
   (lit "max_range", .float),
   (lit "blast_width", .float),
   (lit "reload_time", .float),
   (lit "projectile_unit_id", .int),
   (lit "accuracy_percent", .int),
   (lit "break_off_combat", .int),
   (lit "frame_delay", .int),
   (lit "graphic_displacement", .tuple [.float, .float, .float]),
   (lit "blast_attack_level", .int),
   (lit "min_range", .float),
   (lit "accuracy_dispersion", .float),
   (lit "attack_graphic", .int),
   (lit "displayed_melee_armour", .int),
   (lit "displayed_attack", .int),
   (lit "displayed_range", .float),
   (lit "displayed_reload_time", .float),
   (lit "blast_damage", .float),
   (lit "damage_reflection", .float),
   (lit "friendly_fire_damage", .float),
   (lit "interrupt_frame", .int),
   (lit "garrison_firepower", .float),
   (lit "attack_graphic_2", .int)]

/-- `class Projectile` — `/repo/src/genieutils/unit.py:354-361`. -/
def Projectile.annotations : List (PyStr × Ann) :=
  [(lit "projectile_type", .int),
   (lit "smart_mode", .int),
   (lit "hit_mode", .int),
   (lit "vanish_mode", .int),
   (lit "area_effect_specials", .int),
   (lit "projectile_arc", .float)]

/-- `class ResourceCost` — `/repo/src/genieutils/unit.py:395-399`. -/
def ResourceCost.annotations : List (PyStr × Ann) :=
  [(lit "type", .int),
   (lit "amount", .int),
   (lit "flag", .int)]

/-- `class TrainLocation` — `/repo/src/genieutils/unit.py:421-426`. -/
def TrainLocation.annotations : List (PyStr × Ann) :=
  [(lit "train_time", .int),
   (lit "unit_id", .int),
   (lit "button_id", .int),
   (lit "hot_key_id", .int)]

/-- `class Creatable` — `/repo/src/genieutils/unit.py:473-507`.  For objects read from files before 8.4 (`old`) the annotation
`float` of `invulnerability_level` is replaced by what is there, an `int`.  -/
def Creatable.annotations (old : Bool) : List (PyStr × Ann) :=
  [(lit "resource_costs", .tuple [.cls (lit "ResourceCost"), .cls (lit "ResourceCost"), .cls (lit "ResourceCost")]),
   (lit "train_locations", .list (.cls (lit "TrainLocation"))),
   (lit "rear_attack_modifier", .float),
   (lit "flank_attack_modifier", .float),
   (lit "creatable_type", .int),
   (lit "hero_mode", .int),
   (lit "garrison_graphic", .int),
   (lit "spawning_graphic", .int),
   (lit "upgrade_graphic", .int),
   (lit "hero_glow_graphic", .int),
   (lit "idle_attack_graphic", .int),
   (lit "max_charge", .float),
   (lit "recharge_rate", .float),
   (lit "charge_event", .int),
   (lit "charge_type", .int),
   (lit "charge_target", .int),
   (lit "charge_projectile_unit", .int),
   (lit "attack_priority", .int),
   (lit "invulnerability_level", if old then .int else .float),
   (lit "button_icon_id", .int),
   (lit "button_short_tooltip_id", .int),
   (lit "button_extended_tooltip_id", .int),
   (lit "button_hotkey_action", .int),
   (lit "min_conversion_time_mod", .float),
   (lit "max_conversion_time_mod", .float),
   (lit "conversion_chance_mod", .float),
   (lit "total_projectiles", .float),
   (lit "max_total_projectiles", .int),
   (lit "projectile_spawning_area", .tuple [.float, .float, .float]),
   (lit "secondary_projectile_unit", .int),
   (lit "special_graphic", .int),
   (lit "special_ability", .int),
   (lit "displayed_pierce_armour", .int)]

/-- `class BuildingAnnex` — `/repo/src/genieutils/unit.py:877-881`. -/
def BuildingAnnex.annotations : List (PyStr × Ann) :=
  [(lit "unit_id", .int),
   (lit "misplacement_x", .float),
   (lit "misplacement_y", .float)]

/-- `class Building` — `/repo/src/genieutils/unit.py:908-935`. -/
def Building.annotations : List (PyStr × Ann) :=
  [(lit "construction_graphic_id", .int),
   (lit "snow_graphic_id", .int),
   (lit "destruction_graphic_id", .int),
   (lit "destruction_rubble_graphic_id", .int),
   (lit "researching_graphic", .int),
   (lit "research_completed_graphic", .int),
   (lit "adjacent_mode", .int),
   (lit "graphics_angle", .int),
   (lit "disappears_when_built", .int),
   (lit "stack_unit_id", .int),
   (lit "foundation_terrain_id", .int),
   (lit "old_overlap_id", .int),
   (lit "tech_id", .int),
   (lit "can_burn", .int),
   (lit "annexes", .tuple [.cls (lit "BuildingAnnex"), .cls (lit "BuildingAnnex"), .cls (lit "BuildingAnnex"), .cls (lit "BuildingAnnex")]),
   (lit "head_unit", .int),
   (lit "transform_unit", .int),
   (lit "transform_sound", .int),
   (lit "construction_sound", .int),
   (lit "wwise_transform_sound_id", .int),
   (lit "wwise_construction_sound_id", .int),
   (lit "garrison_type", .int),
   (lit "garrison_heal_rate", .float),
   (lit "garrison_repair_rate", .float),
   (lit "pile_unit", .int),
   (lit "looting_table", .tuple [.int, .int, .int, .int, .int, .int])]

/-- `class Unit` — `/repo/src/genieutils/unit.py:1050-1133`. -/
def Unit.annotations : List (PyStr × Ann) :=
  [(lit "type", .int),
   (lit "id", .int),
   (lit "language_dll_name", .int),
   (lit "language_dll_creation", .int),
   (lit "class_", .int),
   (lit "standing_graphic", .tuple [.int, .int]),
   (lit "dying_graphic", .int),
   (lit "undead_graphic", .int),
   (lit "undead_mode", .int),
   (lit "hit_points", .int),
   (lit "line_of_sight", .float),
   (lit "garrison_capacity", .int),
   (lit "collision_size_x", .float),
   (lit "collision_size_y", .float),
   (lit "collision_size_z", .float),
   (lit "train_sound", .int),
   (lit "damage_sound", .int),
   (lit "dead_unit_id", .int),
   (lit "blood_unit_id", .int),
   (lit "sort_number", .int),
   (lit "can_be_built_on", .int),
   (lit "icon_id", .int),
   (lit "hide_in_editor", .int),
   (lit "old_portrait_pict", .int),
   (lit "enabled", .int),
   (lit "disabled", .int),
   (lit "placement_side_terrain", .tuple [.int, .int]),
   (lit "placement_terrain", .tuple [.int, .int]),
   (lit "clearance_size", .tuple [.float, .float]),
   (lit "hill_mode", .int),
   (lit "fog_visibility", .int),
   (lit "terrain_restriction", .int),
   (lit "fly_mode", .int),
   (lit "resource_capacity", .int),
   (lit "resource_decay", .float),
   (lit "blast_defense_level", .int),
   (lit "combat_level", .int),
   (lit "interaction_mode", .int),
   (lit "minimap_mode", .int),
   (lit "interface_kind", .int),
   (lit "multiple_attribute_mode", .float),
   (lit "minimap_color", .int),
   (lit "language_dll_help", .int),
   (lit "language_dll_hotkey_text", .int),
   (lit "hot_key", .int),
   (lit "recyclable", .int),
   (lit "enable_auto_gather", .int),
   (lit "create_doppelganger_on_death", .int),
   (lit "resource_gather_group", .int),
   (lit "occlusion_mode", .int),
   (lit "obstruction_type", .int),
   (lit "obstruction_class", .int),
   (lit "trait", .int),
   (lit "civilization", .int),
   (lit "nothing", .int),
   (lit "selection_effect", .int),
   (lit "editor_selection_colour", .int),
   (lit "outline_size_x", .float),
   (lit "outline_size_y", .float),
   (lit "outline_size_z", .float),
   (lit "scenario_triggers_1", .int),
   (lit "scenario_triggers_2", .int),
   (lit "resource_storages", .tuple [.cls (lit "ResourceStorage"), .cls (lit "ResourceStorage"), .cls (lit "ResourceStorage")]),
   (lit "damage_graphics", .list (.cls (lit "DamageGraphic"))),
   (lit "selection_sound", .int),
   (lit "dying_sound", .int),
   (lit "wwise_train_sound_id", .int),
   (lit "wwise_damage_sound_id", .int),
   (lit "wwise_selection_sound_id", .int),
   (lit "wwise_dying_sound_id", .int),
   (lit "old_attack_reaction", .int),
   (lit "convert_terrain", .int),
   (lit "name", .str),
   (lit "copy_id", .int),
   (lit "base_id", .int),
   (lit "speed", .opt (.float)),
   (lit "dead_fish", .opt (.cls (lit "DeadFish"))),
   (lit "bird", .opt (.cls (lit "Bird"))),
   (lit "type_50", .opt (.cls (lit "Type50"))),
   (lit "projectile", .opt (.cls (lit "Projectile"))),
   (lit "creatable", .opt (.cls (lit "Creatable"))),
   (lit "building", .opt (.cls (lit "Building")))]

/-- `class UnitHeaders` — `/repo/src/genieutils/unitheaders.py:8-11`. -/
def UnitHeaders.annotations : List (PyStr × Ann) :=
  [(lit "exists", .int),
   (lit "task_list", .opt (.list (.cls (lit "Task"))))]

/-- `class Civ` — `/repo/src/genieutils/civ.py:8-16`. -/
def Civ.annotations : List (PyStr × Ann) :=
  [(lit "player_type", .int),
   (lit "name", .str),
   (lit "tech_tree_id", .int),
   (lit "team_bonus_id", .int),
   (lit "resources", .list (.float)),
   (lit "icon_set", .int),
   (lit "units", .list (.opt (.cls (lit "Unit"))))]

/-- `class DatFile` — `/repo/src/genieutils/datfile.py:21-43`. -/
def DatFile.annotations : List (PyStr × Ann) :=
  [(lit "version", .str),
   (lit "float_ptr_terrain_tables", .list (.int)),
   (lit "terrain_pass_graphic_pointers", .list (.int)),
   (lit "terrain_restrictions", .list (.cls (lit "TerrainRestriction"))),
   (lit "player_colours", .list (.cls (lit "PlayerColour"))),
   (lit "sounds", .list (.cls (lit "Sound"))),
   (lit "graphics", .list (.opt (.cls (lit "Graphic")))),
   (lit "terrain_block", .cls (lit "TerrainBlock")),
   (lit "random_maps", .cls (lit "RandomMaps")),
   (lit "effects", .list (.cls (lit "Effect"))),
   (lit "unit_headers", .list (.cls (lit "UnitHeaders"))),
   (lit "civs", .list (.cls (lit "Civ"))),
   (lit "techs", .list (.cls (lit "Tech"))),
   (lit "time_slice", .int),
   (lit "unit_kill_rate", .int),
   (lit "unit_kill_total", .int),
   (lit "unit_hit_point_rate", .int),
   (lit "unit_hit_point_total", .int),
   (lit "razing_kill_rate", .int),
   (lit "razing_kill_total", .int),
   (lit "tech_tree", .cls (lit "TechTree"))]

/-- All class definitions.  (`old`: see `Creatable.annotations`.) -/
inductive Declares (old : Bool) : PyStr → List (PyStr × Ann) → Prop
  | EffectCommand : Declares old (lit "EffectCommand") EffectCommand.annotations
  | Effect : Declares old (lit "Effect") Effect.annotations
  | SoundItem : Declares old (lit "SoundItem") SoundItem.annotations
  | Sound : Declares old (lit "Sound") Sound.annotations
  | PlayerColour : Declares old (lit "PlayerColour") PlayerColour.annotations
  | GraphicDelta : Declares old (lit "GraphicDelta") GraphicDelta.annotations
  | GraphicAngleSound : Declares old (lit "GraphicAngleSound") GraphicAngleSound.annotations
  | Graphic : Declares old (lit "Graphic") Graphic.annotations
  | TerrainPassGraphic : Declares old (lit "TerrainPassGraphic") TerrainPassGraphic.annotations
  | TerrainRestriction : Declares old (lit "TerrainRestriction") TerrainRestriction.annotations
  | FrameData : Declares old (lit "FrameData") FrameData.annotations
  | Terrain : Declares old (lit "Terrain") Terrain.annotations
  | TileSize : Declares old (lit "TileSize") TileSize.annotations
  | TerrainBlock : Declares old (lit "TerrainBlock") TerrainBlock.annotations
  | MapUnit : Declares old (lit "MapUnit") MapUnit.annotations
  | MapTerrain : Declares old (lit "MapTerrain") MapTerrain.annotations
  | MapLand : Declares old (lit "MapLand") MapLand.annotations
  | MapElevation : Declares old (lit "MapElevation") MapElevation.annotations
  | MapInfo : Declares old (lit "MapInfo") MapInfo.annotations
  | RandomMaps : Declares old (lit "RandomMaps") RandomMaps.annotations
  | ResearchResourceCost : Declares old (lit "ResearchResourceCost") ResearchResourceCost.annotations
  | ResearchLocation : Declares old (lit "ResearchLocation") ResearchLocation.annotations
  | Tech : Declares old (lit "Tech") Tech.annotations
  | Common : Declares old (lit "Common") Common.annotations
  | TechTreeAge : Declares old (lit "TechTreeAge") TechTreeAge.annotations
  | BuildingConnection : Declares old (lit "BuildingConnection") BuildingConnection.annotations
  | UnitConnection : Declares old (lit "UnitConnection") UnitConnection.annotations
  | ResearchConnection : Declares old (lit "ResearchConnection") ResearchConnection.annotations
  | TechTree : Declares old (lit "TechTree") TechTree.annotations
  | Task : Declares old (lit "Task") Task.annotations
  | ResourceStorage : Declares old (lit "ResourceStorage") ResourceStorage.annotations
  | DamageGraphic : Declares old (lit "DamageGraphic") DamageGraphic.annotations
  | DeadFish : Declares old (lit "DeadFish") DeadFish.annotations
  | Bird : Declares old (lit "Bird") Bird.annotations
  | AttackOrArmor : Declares old (lit "AttackOrArmor") AttackOrArmor.annotations
  | Type50 : Declares old (lit "Type50") Type50.annotations
  | Projectile : Declares old (lit "Projectile") Projectile.annotations
  | ResourceCost : Declares old (lit "ResourceCost") ResourceCost.annotations
  | TrainLocation : Declares old (lit "TrainLocation") TrainLocation.annotations
  | Creatable : Declares old (lit "Creatable") (Creatable.annotations old)
  | BuildingAnnex : Declares old (lit "BuildingAnnex") BuildingAnnex.annotations
  | Building : Declares old (lit "Building") Building.annotations
  | Unit : Declares old (lit "Unit") Unit.annotations
  | UnitHeaders : Declares old (lit "UnitHeaders") UnitHeaders.annotations
  | Civ : Declares old (lit "Civ") Civ.annotations
  | DatFile : Declares old (lit "DatFile") DatFile.annotations

end Genie
