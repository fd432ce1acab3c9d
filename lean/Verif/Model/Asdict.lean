import Verif.Model.Datfile
import Verif.Py.Json
/-!
# `dataclasses.asdict` of every class

`dataclasses.asdict(obj)` maps a dataclass instance to the `dict` of its fields, in the order of their definition and under their names,
and recurses into lists and tuples; `None`, `int`, `float` and `str` are kept.  (`/repo/src/genieutils/scripts.py:19` calls it.)

Most fields hold what their annotation says.  The exception is `Creatable.invulnerability_level: float`: the reader for files before 8.4
stores the `int` literal `0` there (`/repo/src/genieutils/unit.py:551`), which prints as `0`, not `0.0`; the argument `old` says that the
object was read from such a file.  (Generated by `tools/gen_asdict.py`.)
-/

namespace Genie

/-- `X | None`. -/
def optTree (f : α → PyTree) : Option α → PyTree
  | none => .none
  | some x => f x

/-- `invulnerability_level`: the `int` literal `0` of `/repo/src/genieutils/unit.py:551` (represented by `0.0` in the model of the
reader), or a float. -/
def invulnerabilityTree (old : Bool) (x : PyFloat) : PyTree :=
  if old = true ∧ x = PyFloat.zero then .int 0 else .float x

/-- `dataclasses.asdict` of a `EffectCommand` — fields as in `/repo/src/genieutils/effect.py:7-13`. -/
def EffectCommand.asdict (self : EffectCommand) : PyTree :=
  .dict [
    (lit "type", .int self.type),
    (lit "a", .int self.a),
    (lit "b", .int self.b),
    (lit "c", .int self.c),
    (lit "d", .float self.d)]

/-- `dataclasses.asdict` of a `Effect` — fields as in `/repo/src/genieutils/effect.py:35-38`. -/
def Effect.asdict (self : Effect) : PyTree :=
  .dict [
    (lit "name", .str self.name),
    (lit "effect_commands", .list (self.effect_commands.map EffectCommand.asdict))]

/-- `dataclasses.asdict` of a `SoundItem` — fields as in `/repo/src/genieutils/sound.py:7-13`. -/
def SoundItem.asdict (self : SoundItem) : PyTree :=
  .dict [
    (lit "filename", .str self.filename),
    (lit "resource_id", .int self.resource_id),
    (lit "probability", .int self.probability),
    (lit "civilization", .int self.civilization),
    (lit "icon_set", .int self.icon_set)]

/-- `dataclasses.asdict` of a `Sound` — fields as in `/repo/src/genieutils/sound.py:35-41`. -/
def Sound.asdict (self : Sound) : PyTree :=
  .dict [
    (lit "id", .int self.id),
    (lit "play_delay", .int self.play_delay),
    (lit "cache_time", .int self.cache_time),
    (lit "total_probability", .int self.total_probability),
    (lit "items", .list (self.items.map SoundItem.asdict))]

/-- `dataclasses.asdict` of a `PlayerColour` — fields as in `/repo/src/genieutils/playercolour.py:7-17`. -/
def PlayerColour.asdict (self : PlayerColour) : PyTree :=
  .dict [
    (lit "id", .int self.id),
    (lit "player_color_base", .int self.player_color_base),
    (lit "unit_outline_color", .int self.unit_outline_color),
    (lit "unit_selection_color_1", .int self.unit_selection_color_1),
    (lit "unit_selection_color_2", .int self.unit_selection_color_2),
    (lit "minimap_color", .int self.minimap_color),
    (lit "minimap_color_2", .int self.minimap_color_2),
    (lit "minimap_color_3", .int self.minimap_color_3),
    (lit "statistics_text", .int self.statistics_text)]

/-- `dataclasses.asdict` of a `GraphicDelta` — fields as in `/repo/src/genieutils/graphic.py:7-15`. -/
def GraphicDelta.asdict (self : GraphicDelta) : PyTree :=
  .dict [
    (lit "graphic_id", .int self.graphic_id),
    (lit "padding_1", .int self.padding_1),
    (lit "sprite_ptr", .int self.sprite_ptr),
    (lit "offset_x", .int self.offset_x),
    (lit "offset_y", .int self.offset_y),
    (lit "display_angle", .int self.display_angle),
    (lit "padding_2", .int self.padding_2)]

/-- `dataclasses.asdict` of a `GraphicAngleSound` — fields as in `/repo/src/genieutils/graphic.py:41-51`. -/
def GraphicAngleSound.asdict (self : GraphicAngleSound) : PyTree :=
  .dict [
    (lit "frame_num", .int self.frame_num),
    (lit "sound_id", .int self.sound_id),
    (lit "wwise_sound_id", .int self.wwise_sound_id),
    (lit "frame_num_2", .int self.frame_num_2),
    (lit "sound_id_2", .int self.sound_id_2),
    (lit "wwise_sound_id_2", .int self.wwise_sound_id_2),
    (lit "frame_num_3", .int self.frame_num_3),
    (lit "sound_id_3", .int self.sound_id_3),
    (lit "wwise_sound_id_3", .int self.wwise_sound_id_3)]

/-- `dataclasses.asdict` of a `Graphic` — fields as in `/repo/src/genieutils/graphic.py:81-106`. -/
def Graphic.asdict (self : Graphic) : PyTree :=
  .dict [
    (lit "name", .str self.name),
    (lit "file_name", .str self.file_name),
    (lit "particle_effect_name", .str self.particle_effect_name),
    (lit "slp", .int self.slp),
    (lit "is_loaded", .int self.is_loaded),
    (lit "old_color_flag", .int self.old_color_flag),
    (lit "layer", .int self.layer),
    (lit "player_color", .int self.player_color),
    (lit "transparent_selection", .int self.transparent_selection),
    (lit "coordinates", .list (self.coordinates.map .int)),
    (lit "sound_id", .int self.sound_id),
    (lit "wwise_sound_id", .int self.wwise_sound_id),
    (lit "angle_sounds_used", .int self.angle_sounds_used),
    (lit "frame_count", .int self.frame_count),
    (lit "angle_count", .int self.angle_count),
    (lit "speed_multiplier", .float self.speed_multiplier),
    (lit "frame_duration", .float self.frame_duration),
    (lit "replay_delay", .float self.replay_delay),
    (lit "sequence_type", .int self.sequence_type),
    (lit "id", .int self.id),
    (lit "mirroring_mode", .int self.mirroring_mode),
    (lit "editor_flag", .int self.editor_flag),
    (lit "deltas", .list (self.deltas.map GraphicDelta.asdict)),
    (lit "angle_sounds", .list (self.angle_sounds.map GraphicAngleSound.asdict))]

/-- `dataclasses.asdict` of a `TerrainPassGraphic` — fields as in `/repo/src/genieutils/terrainrestriction.py:7-12`. -/
def TerrainPassGraphic.asdict (self : TerrainPassGraphic) : PyTree :=
  .dict [
    (lit "exit_tile_sprite_id", .int self.exit_tile_sprite_id),
    (lit "enter_tile_sprite_id", .int self.enter_tile_sprite_id),
    (lit "walk_tile_sprite_id", .int self.walk_tile_sprite_id),
    (lit "walk_sprite_rate", .int self.walk_sprite_rate)]

/-- `dataclasses.asdict` of a `TerrainRestriction` — fields as in `/repo/src/genieutils/terrainrestriction.py:32-35`. -/
def TerrainRestriction.asdict (self : TerrainRestriction) : PyTree :=
  .dict [
    (lit "passable_buildable_dmg_multiplier", .list (self.passable_buildable_dmg_multiplier.map .float)),
    (lit "terrain_pass_graphics", .list (self.terrain_pass_graphics.map TerrainPassGraphic.asdict))]

/-- `dataclasses.asdict` of a `FrameData` — fields as in `/repo/src/genieutils/terrainblock.py:7-11`. -/
def FrameData.asdict (self : FrameData) : PyTree :=
  .dict [
    (lit "frame_count", .int self.frame_count),
    (lit "angle_count", .int self.angle_count),
    (lit "shape_id", .int self.shape_id)]

/-- `dataclasses.asdict` of a `Terrain` — fields as in `/repo/src/genieutils/terrainblock.py:29-68`. -/
def Terrain.asdict (self : Terrain) : PyTree :=
  .dict [
    (lit "enabled", .int self.enabled),
    (lit "random", .int self.random),
    (lit "is_water", .int self.is_water),
    (lit "hide_in_editor", .int self.hide_in_editor),
    (lit "string_id", .int self.string_id),
    (lit "name", .str self.name),
    (lit "name_2", .str self.name_2),
    (lit "slp", .int self.slp),
    (lit "shape_ptr", .int self.shape_ptr),
    (lit "sound_id", .int self.sound_id),
    (lit "wwise_sound_id", .int self.wwise_sound_id),
    (lit "wwise_sound_stop_id", .int self.wwise_sound_stop_id),
    (lit "blend_priority", .int self.blend_priority),
    (lit "blend_type", .int self.blend_type),
    (lit "overlay_mask_name", .str self.overlay_mask_name),
    (lit "colors", .list (self.colors.map .int)),
    (lit "cliff_colors", .list (self.cliff_colors.map .int)),
    (lit "passable_terrain", .int self.passable_terrain),
    (lit "impassable_terrain", .int self.impassable_terrain),
    (lit "is_animated", .int self.is_animated),
    (lit "animation_frames", .int self.animation_frames),
    (lit "pause_frames", .int self.pause_frames),
    (lit "interval", .float self.interval),
    (lit "pause_between_loops", .float self.pause_between_loops),
    (lit "frame", .int self.frame),
    (lit "draw_frame", .int self.draw_frame),
    (lit "animate_last", .float self.animate_last),
    (lit "frame_changed", .int self.frame_changed),
    (lit "drawn", .int self.drawn),
    (lit "frame_data", .list (self.frame_data.map FrameData.asdict)),
    (lit "terrain_to_draw", .int self.terrain_to_draw),
    (lit "terrain_dimensions", .list (self.terrain_dimensions.map .int)),
    (lit "terrain_unit_masked_density", .list (self.terrain_unit_masked_density.map .int)),
    (lit "terrain_unit_id", .list (self.terrain_unit_id.map .int)),
    (lit "terrain_unit_density", .list (self.terrain_unit_density.map .int)),
    (lit "terrain_unit_centering", .list (self.terrain_unit_centering.map .int)),
    (lit "number_of_terrain_units_used", .int self.number_of_terrain_units_used),
    (lit "phantom", .int self.phantom)]

/-- `dataclasses.asdict` of a `TileSize` — fields as in `/repo/src/genieutils/terrainblock.py:156-160`. -/
def TileSize.asdict (self : TileSize) : PyTree :=
  .dict [
    (lit "width", .int self.width),
    (lit "height", .int self.height),
    (lit "delta_y", .int self.delta_y)]

/-- `dataclasses.asdict` of a `TerrainBlock` — fields as in `/repo/src/genieutils/terrainblock.py:178-213`. -/
def TerrainBlock.asdict (self : TerrainBlock) : PyTree :=
  .dict [
    (lit "virtual_function_ptr", .int self.virtual_function_ptr),
    (lit "map_pointer", .int self.map_pointer),
    (lit "map_width", .int self.map_width),
    (lit "map_height", .int self.map_height),
    (lit "world_width", .int self.world_width),
    (lit "world_height", .int self.world_height),
    (lit "tile_sizes", .list (self.tile_sizes.map TileSize.asdict)),
    (lit "padding_ts", .int self.padding_ts),
    (lit "terrains", .list (self.terrains.map Terrain.asdict)),
    (lit "map_min_x", .float self.map_min_x),
    (lit "map_min_y", .float self.map_min_y),
    (lit "map_max_x", .float self.map_max_x),
    (lit "map_max_y", .float self.map_max_y),
    (lit "map_max_x_plus_1", .float self.map_max_x_plus_1),
    (lit "map_max_y_plus_1", .float self.map_max_y_plus_1),
    (lit "terrains_used_2", .int self.terrains_used_2),
    (lit "borders_used", .int self.borders_used),
    (lit "max_terrain", .int self.max_terrain),
    (lit "tile_width", .int self.tile_width),
    (lit "tile_height", .int self.tile_height),
    (lit "tile_half_height", .int self.tile_half_height),
    (lit "tile_half_width", .int self.tile_half_width),
    (lit "elev_height", .int self.elev_height),
    (lit "cur_row", .int self.cur_row),
    (lit "cur_col", .int self.cur_col),
    (lit "block_beg_row", .int self.block_beg_row),
    (lit "block_end_row", .int self.block_end_row),
    (lit "block_beg_col", .int self.block_beg_col),
    (lit "block_end_col", .int self.block_end_col),
    (lit "search_map_ptr", .int self.search_map_ptr),
    (lit "search_map_rows_ptr", .int self.search_map_rows_ptr),
    (lit "any_frame_change", .int self.any_frame_change),
    (lit "map_visible_flag", .int self.map_visible_flag),
    (lit "fog_flag", .int self.fog_flag)]

/-- `dataclasses.asdict` of a `MapUnit` — fields as in `/repo/src/genieutils/randommaps.py:7-21`. -/
def MapUnit.asdict (self : MapUnit) : PyTree :=
  .dict [
    (lit "unit", .int self.unit),
    (lit "host_terrain", .int self.host_terrain),
    (lit "group_placing", .int self.group_placing),
    (lit "scale_flag", .int self.scale_flag),
    (lit "padding_1", .int self.padding_1),
    (lit "objects_per_group", .int self.objects_per_group),
    (lit "fluctuation", .int self.fluctuation),
    (lit "groups_per_player", .int self.groups_per_player),
    (lit "group_arena", .int self.group_arena),
    (lit "player_id", .int self.player_id),
    (lit "set_place_for_all_players", .int self.set_place_for_all_players),
    (lit "min_distance_to_players", .int self.min_distance_to_players),
    (lit "max_distance_to_players", .int self.max_distance_to_players)]

/-- `dataclasses.asdict` of a `MapTerrain` — fields as in `/repo/src/genieutils/randommaps.py:59-66`. -/
def MapTerrain.asdict (self : MapTerrain) : PyTree :=
  .dict [
    (lit "proportion", .int self.proportion),
    (lit "terrain", .int self.terrain),
    (lit "clump_count", .int self.clump_count),
    (lit "edge_spacing", .int self.edge_spacing),
    (lit "placement_terrain", .int self.placement_terrain),
    (lit "clumpiness", .int self.clumpiness)]

/-- `dataclasses.asdict` of a `MapLand` — fields as in `/repo/src/genieutils/randommaps.py:90-106`. -/
def MapLand.asdict (self : MapLand) : PyTree :=
  .dict [
    (lit "land_id", .int self.land_id),
    (lit "terrain", .int self.terrain),
    (lit "land_spacing", .int self.land_spacing),
    (lit "base_size", .int self.base_size),
    (lit "zone", .int self.zone),
    (lit "placement_type", .int self.placement_type),
    (lit "padding_1", .int self.padding_1),
    (lit "base_x", .int self.base_x),
    (lit "base_y", .int self.base_y),
    (lit "land_proportion", .int self.land_proportion),
    (lit "by_player_flag", .int self.by_player_flag),
    (lit "padding_2", .int self.padding_2),
    (lit "start_area_radius", .int self.start_area_radius),
    (lit "terrain_edge_fade", .int self.terrain_edge_fade),
    (lit "clumpiness", .int self.clumpiness)]

/-- `dataclasses.asdict` of a `MapElevation` — fields as in `/repo/src/genieutils/randommaps.py:148-155`. -/
def MapElevation.asdict (self : MapElevation) : PyTree :=
  .dict [
    (lit "proportion", .int self.proportion),
    (lit "terrain", .int self.terrain),
    (lit "clump_count", .int self.clump_count),
    (lit "base_terrain", .int self.base_terrain),
    (lit "base_elevation", .int self.base_elevation),
    (lit "tile_spacing", .int self.tile_spacing)]

/-- `dataclasses.asdict` of a `MapInfo` — fields as in `/repo/src/genieutils/randommaps.py:179-202`. -/
def MapInfo.asdict (self : MapInfo) : PyTree :=
  .dict [
    (lit "map_id", .int self.map_id),
    (lit "border_south_west", .int self.border_south_west),
    (lit "border_north_west", .int self.border_north_west),
    (lit "border_north_east", .int self.border_north_east),
    (lit "border_south_east", .int self.border_south_east),
    (lit "border_usage", .int self.border_usage),
    (lit "water_shape", .int self.water_shape),
    (lit "base_terrain", .int self.base_terrain),
    (lit "land_coverage", .int self.land_coverage),
    (lit "unused_id", .int self.unused_id),
    (lit "map_lands_size", .int self.map_lands_size),
    (lit "map_lands_ptr", .int self.map_lands_ptr),
    (lit "map_lands", .list (self.map_lands.map MapLand.asdict)),
    (lit "map_terrains_size", .int self.map_terrains_size),
    (lit "map_terrains_ptr", .int self.map_terrains_ptr),
    (lit "map_terrains", .list (self.map_terrains.map MapTerrain.asdict)),
    (lit "map_units_size", .int self.map_units_size),
    (lit "map_units_ptr", .int self.map_units_ptr),
    (lit "map_units", .list (self.map_units.map MapUnit.asdict)),
    (lit "map_elevations_size", .int self.map_elevations_size),
    (lit "map_elevations_ptr", .int self.map_elevations_ptr),
    (lit "map_elevations", .list (self.map_elevations.map MapElevation.asdict))]

/-- `dataclasses.asdict` of a `RandomMaps` — fields as in `/repo/src/genieutils/randommaps.py:280-284`. -/
def RandomMaps.asdict (self : RandomMaps) : PyTree :=
  .dict [
    (lit "random_maps_ptr", .int self.random_maps_ptr),
    (lit "map_info_1", .list (self.map_info_1.map MapInfo.asdict)),
    (lit "map_info_2", .list (self.map_info_2.map MapInfo.asdict))]

/-- `dataclasses.asdict` of a `ResearchResourceCost` — fields as in `/repo/src/genieutils/tech.py:7-11`. -/
def ResearchResourceCost.asdict (self : ResearchResourceCost) : PyTree :=
  .dict [
    (lit "type", .int self.type),
    (lit "amount", .int self.amount),
    (lit "flag", .int self.flag)]

/-- `dataclasses.asdict` of a `ResearchLocation` — fields as in `/repo/src/genieutils/tech.py:29-34`. -/
def ResearchLocation.asdict (self : ResearchLocation) : PyTree :=
  .dict [
    (lit "location_id", .int self.location_id),
    (lit "research_time", .int self.research_time),
    (lit "button_id", .int self.button_id),
    (lit "hot_key_id", .int self.hot_key_id)]

/-- `dataclasses.asdict` of a `Tech` — fields as in `/repo/src/genieutils/tech.py:54-70`. -/
def Tech.asdict (self : Tech) : PyTree :=
  .dict [
    (lit "required_techs", .list (self.required_techs.map .int)),
    (lit "resource_costs", .list (self.resource_costs.map ResearchResourceCost.asdict)),
    (lit "required_tech_count", .int self.required_tech_count),
    (lit "civ", .int self.civ),
    (lit "full_tech_mode", .int self.full_tech_mode),
    (lit "language_dll_name", .int self.language_dll_name),
    (lit "language_dll_description", .int self.language_dll_description),
    (lit "effect_id", .int self.effect_id),
    (lit "type", .int self.type),
    (lit "icon_id", .int self.icon_id),
    (lit "language_dll_help", .int self.language_dll_help),
    (lit "language_dll_tech_tree", .int self.language_dll_tech_tree),
    (lit "name", .str self.name),
    (lit "repeatable", .int self.repeatable),
    (lit "research_locations", .list (self.research_locations.map ResearchLocation.asdict))]

/-- `dataclasses.asdict` of a `Common` — fields as in `/repo/src/genieutils/techtree.py:7-11`. -/
def Common.asdict (self : Common) : PyTree :=
  .dict [
    (lit "slots_used", .int self.slots_used),
    (lit "unit_research", .list (self.unit_research.map .int)),
    (lit "mode", .list (self.mode.map .int))]

/-- `dataclasses.asdict` of a `TechTreeAge` — fields as in `/repo/src/genieutils/techtree.py:29-41`. -/
def TechTreeAge.asdict (self : TechTreeAge) : PyTree :=
  .dict [
    (lit "id", .int self.id),
    (lit "status", .int self.status),
    (lit "buildings", .list (self.buildings.map .int)),
    (lit "units", .list (self.units.map .int)),
    (lit "techs", .list (self.techs.map .int)),
    (lit "common", Common.asdict self.common),
    (lit "num_building_levels", .int self.num_building_levels),
    (lit "buildings_per_zone", .list (self.buildings_per_zone.map .int)),
    (lit "group_length_per_zone", .list (self.group_length_per_zone.map .int)),
    (lit "max_age_length", .int self.max_age_length),
    (lit "line_mode", .int self.line_mode)]

/-- `dataclasses.asdict` of a `BuildingConnection` — fields as in `/repo/src/genieutils/techtree.py:92-104`. -/
def BuildingConnection.asdict (self : BuildingConnection) : PyTree :=
  .dict [
    (lit "id", .int self.id),
    (lit "status", .int self.status),
    (lit "buildings", .list (self.buildings.map .int)),
    (lit "units", .list (self.units.map .int)),
    (lit "techs", .list (self.techs.map .int)),
    (lit "common", Common.asdict self.common),
    (lit "location_in_age", .int self.location_in_age),
    (lit "units_techs_total", .list (self.units_techs_total.map .int)),
    (lit "units_techs_first", .list (self.units_techs_first.map .int)),
    (lit "line_mode", .int self.line_mode),
    (lit "enabling_research", .int self.enabling_research)]

/-- `dataclasses.asdict` of a `UnitConnection` — fields as in `/repo/src/genieutils/techtree.py:155-166`. -/
def UnitConnection.asdict (self : UnitConnection) : PyTree :=
  .dict [
    (lit "id", .int self.id),
    (lit "status", .int self.status),
    (lit "upper_building", .int self.upper_building),
    (lit "common", Common.asdict self.common),
    (lit "vertical_line", .int self.vertical_line),
    (lit "units", .list (self.units.map .int)),
    (lit "location_in_age", .int self.location_in_age),
    (lit "required_research", .int self.required_research),
    (lit "line_mode", .int self.line_mode),
    (lit "enabling_research", .int self.enabling_research)]

/-- `dataclasses.asdict` of a `ResearchConnection` — fields as in `/repo/src/genieutils/techtree.py:210-221`. -/
def ResearchConnection.asdict (self : ResearchConnection) : PyTree :=
  .dict [
    (lit "id", .int self.id),
    (lit "status", .int self.status),
    (lit "upper_building", .int self.upper_building),
    (lit "buildings", .list (self.buildings.map .int)),
    (lit "units", .list (self.units.map .int)),
    (lit "techs", .list (self.techs.map .int)),
    (lit "common", Common.asdict self.common),
    (lit "vertical_line", .int self.vertical_line),
    (lit "location_in_age", .int self.location_in_age),
    (lit "line_mode", .int self.line_mode)]

/-- `dataclasses.asdict` of a `TechTree` — fields as in `/repo/src/genieutils/techtree.py:269-275`. -/
def TechTree.asdict (self : TechTree) : PyTree :=
  .dict [
    (lit "total_unit_tech_groups", .int self.total_unit_tech_groups),
    (lit "tech_tree_ages", .list (self.tech_tree_ages.map TechTreeAge.asdict)),
    (lit "building_connections", .list (self.building_connections.map BuildingConnection.asdict)),
    (lit "unit_connections", .list (self.unit_connections.map UnitConnection.asdict)),
    (lit "research_connections", .list (self.research_connections.map ResearchConnection.asdict))]

/-- `dataclasses.asdict` of a `Task` — fields as in `/repo/src/genieutils/task.py:14-47`. -/
def Task.asdict (self : Task) : PyTree :=
  .dict [
    (lit "task_type", .int self.task_type),
    (lit "id", .int self.id),
    (lit "is_default", .int self.is_default),
    (lit "action_type", .int self.action_type),
    (lit "class_id", .int self.class_id),
    (lit "unit_id", .int self.unit_id),
    (lit "terrain_id", .int self.terrain_id),
    (lit "resource_in", .int self.resource_in),
    (lit "resource_multiplier", .int self.resource_multiplier),
    (lit "resource_out", .int self.resource_out),
    (lit "unused_resource", .int self.unused_resource),
    (lit "work_value_1", .float self.work_value_1),
    (lit "work_value_2", .float self.work_value_2),
    (lit "work_range", .float self.work_range),
    (lit "auto_search_targets", .int self.auto_search_targets),
    (lit "search_wait_time", .float self.search_wait_time),
    (lit "enable_targeting", .int self.enable_targeting),
    (lit "combat_level_flag", .int self.combat_level_flag),
    (lit "gather_type", .int self.gather_type),
    (lit "work_flag_2", .int self.work_flag_2),
    (lit "target_diplomacy", .int self.target_diplomacy),
    (lit "carry_check", .int self.carry_check),
    (lit "pick_for_construction", .int self.pick_for_construction),
    (lit "moving_graphic_id", .int self.moving_graphic_id),
    (lit "proceeding_graphic_id", .int self.proceeding_graphic_id),
    (lit "working_graphic_id", .int self.working_graphic_id),
    (lit "carrying_graphic_id", .int self.carrying_graphic_id),
    (lit "resource_gathering_sound_id", .int self.resource_gathering_sound_id),
    (lit "resource_deposit_sound_id", .int self.resource_deposit_sound_id),
    (lit "wwise_resource_gathering_sound_id", .int self.wwise_resource_gathering_sound_id),
    (lit "wwise_resource_deposit_sound_id", .int self.wwise_resource_deposit_sound_id),
    (lit "enabled", .int self.enabled)]

/-- `dataclasses.asdict` of a `ResourceStorage` — fields as in `/repo/src/genieutils/unit.py:12-16`. -/
def ResourceStorage.asdict (self : ResourceStorage) : PyTree :=
  .dict [
    (lit "type", .int self.type),
    (lit "amount", .float self.amount),
    (lit "flag", .int self.flag)]

/-- `dataclasses.asdict` of a `DamageGraphic` — fields as in `/repo/src/genieutils/unit.py:36-40`. -/
def DamageGraphic.asdict (self : DamageGraphic) : PyTree :=
  .dict [
    (lit "graphic_id", .int self.graphic_id),
    (lit "damage_percent", .int self.damage_percent),
    (lit "apply_mode", .int self.apply_mode)]

/-- `dataclasses.asdict` of a `DeadFish` — fields as in `/repo/src/genieutils/unit.py:61-76`. -/
def DeadFish.asdict (self : DeadFish) : PyTree :=
  .dict [
    (lit "walking_graphic", .int self.walking_graphic),
    (lit "running_graphic", .int self.running_graphic),
    (lit "rotation_speed", .float self.rotation_speed),
    (lit "old_size_class", .int self.old_size_class),
    (lit "tracking_unit", .int self.tracking_unit),
    (lit "tracking_unit_mode", .int self.tracking_unit_mode),
    (lit "tracking_unit_density", .float self.tracking_unit_density),
    (lit "old_move_algorithm", .int self.old_move_algorithm),
    (lit "turn_radius", .float self.turn_radius),
    (lit "turn_radius_speed", .float self.turn_radius_speed),
    (lit "max_yaw_per_second_moving", .float self.max_yaw_per_second_moving),
    (lit "stationary_yaw_revolution_time", .float self.stationary_yaw_revolution_time),
    (lit "max_yaw_per_second_stationary", .float self.max_yaw_per_second_stationary),
    (lit "min_collision_size_multiplier", .float self.min_collision_size_multiplier)]

/-- `dataclasses.asdict` of a `Bird` — fields as in `/repo/src/genieutils/unit.py:131-143`. -/
def Bird.asdict (self : Bird) : PyTree :=
  .dict [
    (lit "default_task_id", .int self.default_task_id),
    (lit "search_radius", .float self.search_radius),
    (lit "work_rate", .float self.work_rate),
    (lit "drop_sites", .list (self.drop_sites.map .int)),
    (lit "task_swap_group", .int self.task_swap_group),
    (lit "attack_sound", .int self.attack_sound),
    (lit "move_sound", .int self.move_sound),
    (lit "wwise_attack_sound_id", .int self.wwise_attack_sound_id),
    (lit "wwise_move_sound_id", .int self.wwise_move_sound_id),
    (lit "run_pattern", .int self.run_pattern),
    (lit "tasks", .list (self.tasks.map Task.asdict))]

/-- `dataclasses.asdict` of a `AttackOrArmor` — fields as in `/repo/src/genieutils/unit.py:198-201`. -/
def AttackOrArmor.asdict (self : AttackOrArmor) : PyTree :=
  .dict [
    (lit "class_", .int self.class_),
    (lit "amount", .int self.amount)]

/-- `dataclasses.asdict` of a `Type50` — fields as in `/repo/src/genieutils/unit.py:215-243`. -/
def Type50.asdict (self : Type50) : PyTree :=
  .dict [
    (lit "base_armor", .int self.base_armor),
    (lit "attacks", .list (self.attacks.map AttackOrArmor.asdict)),
    (lit "armours", .list (self.armours.map AttackOrArmor.asdict)),
    (lit "defense_terrain_bonus", .int self.defense_terrain_bonus),
    (lit "bonus_damage_resistance", .float self.bonus_damage_resistance),
    (lit "max_range", .float self.max_range),
    (lit "blast_width", .float self.blast_width),
    (lit "reload_time", .float self.reload_time),
    (lit "projectile_unit_id", .int self.projectile_unit_id),
    (lit "accuracy_percent", .int self.accuracy_percent),
    (lit "break_off_combat", .int self.break_off_combat),
    (lit "frame_delay", .int self.frame_delay),
    (lit "graphic_displacement", .list (self.graphic_displacement.map .float)),
    (lit "blast_attack_level", .int self.blast_attack_level),
    (lit "min_range", .float self.min_range),
    (lit "accuracy_dispersion", .float self.accuracy_dispersion),
    (lit "attack_graphic", .int self.attack_graphic),
    (lit "displayed_melee_armour", .int self.displayed_melee_armour),
    (lit "displayed_attack", .int self.displayed_attack),
    (lit "displayed_range", .float self.displayed_range),
    (lit "displayed_reload_time", .float self.displayed_reload_time),
    (lit "blast_damage", .float self.blast_damage),
    (lit "damage_reflection", .float self.damage_reflection),
    (lit "friendly_fire_damage", .float self.friendly_fire_damage),
    (lit "interrupt_frame", .int self.interrupt_frame),
    (lit "garrison_firepower", .float self.garrison_firepower),
    (lit "attack_graphic_2", .int self.attack_graphic_2)]

/-- `dataclasses.asdict` of a `Projectile` — fields as in `/repo/src/genieutils/unit.py:354-361`. -/
def Projectile.asdict (self : Projectile) : PyTree :=
  .dict [
    (lit "projectile_type", .int self.projectile_type),
    (lit "smart_mode", .int self.smart_mode),
    (lit "hit_mode", .int self.hit_mode),
    (lit "vanish_mode", .int self.vanish_mode),
    (lit "area_effect_specials", .int self.area_effect_specials),
    (lit "projectile_arc", .float self.projectile_arc)]

/-- `dataclasses.asdict` of a `ResourceCost` — fields as in `/repo/src/genieutils/unit.py:395-399`. -/
def ResourceCost.asdict (self : ResourceCost) : PyTree :=
  .dict [
    (lit "type", .int self.type),
    (lit "amount", .int self.amount),
    (lit "flag", .int self.flag)]

/-- `dataclasses.asdict` of a `TrainLocation` — fields as in `/repo/src/genieutils/unit.py:421-426`. -/
def TrainLocation.asdict (self : TrainLocation) : PyTree :=
  .dict [
    (lit "train_time", .int self.train_time),
    (lit "unit_id", .int self.unit_id),
    (lit "button_id", .int self.button_id),
    (lit "hot_key_id", .int self.hot_key_id)]

/-- `dataclasses.asdict` of a `Creatable` — fields as in `/repo/src/genieutils/unit.py:473-507`. -/
def Creatable.asdict (old : Bool) (self : Creatable) : PyTree :=
  .dict [
    (lit "resource_costs", .list (self.resource_costs.map ResourceCost.asdict)),
    (lit "train_locations", .list (self.train_locations.map TrainLocation.asdict)),
    (lit "rear_attack_modifier", .float self.rear_attack_modifier),
    (lit "flank_attack_modifier", .float self.flank_attack_modifier),
    (lit "creatable_type", .int self.creatable_type),
    (lit "hero_mode", .int self.hero_mode),
    (lit "garrison_graphic", .int self.garrison_graphic),
    (lit "spawning_graphic", .int self.spawning_graphic),
    (lit "upgrade_graphic", .int self.upgrade_graphic),
    (lit "hero_glow_graphic", .int self.hero_glow_graphic),
    (lit "idle_attack_graphic", .int self.idle_attack_graphic),
    (lit "max_charge", .float self.max_charge),
    (lit "recharge_rate", .float self.recharge_rate),
    (lit "charge_event", .int self.charge_event),
    (lit "charge_type", .int self.charge_type),
    (lit "charge_target", .int self.charge_target),
    (lit "charge_projectile_unit", .int self.charge_projectile_unit),
    (lit "attack_priority", .int self.attack_priority),
    (lit "invulnerability_level", invulnerabilityTree old self.invulnerability_level),
    (lit "button_icon_id", .int self.button_icon_id),
    (lit "button_short_tooltip_id", .int self.button_short_tooltip_id),
    (lit "button_extended_tooltip_id", .int self.button_extended_tooltip_id),
    (lit "button_hotkey_action", .int self.button_hotkey_action),
    (lit "min_conversion_time_mod", .float self.min_conversion_time_mod),
    (lit "max_conversion_time_mod", .float self.max_conversion_time_mod),
    (lit "conversion_chance_mod", .float self.conversion_chance_mod),
    (lit "total_projectiles", .float self.total_projectiles),
    (lit "max_total_projectiles", .int self.max_total_projectiles),
    (lit "projectile_spawning_area", .list (self.projectile_spawning_area.map .float)),
    (lit "secondary_projectile_unit", .int self.secondary_projectile_unit),
    (lit "special_graphic", .int self.special_graphic),
    (lit "special_ability", .int self.special_ability),
    (lit "displayed_pierce_armour", .int self.displayed_pierce_armour)]

/-- `dataclasses.asdict` of a `BuildingAnnex` — fields as in `/repo/src/genieutils/unit.py:877-881`. -/
def BuildingAnnex.asdict (self : BuildingAnnex) : PyTree :=
  .dict [
    (lit "unit_id", .int self.unit_id),
    (lit "misplacement_x", .float self.misplacement_x),
    (lit "misplacement_y", .float self.misplacement_y)]

/-- `dataclasses.asdict` of a `Building` — fields as in `/repo/src/genieutils/unit.py:908-935`. -/
def Building.asdict (self : Building) : PyTree :=
  .dict [
    (lit "construction_graphic_id", .int self.construction_graphic_id),
    (lit "snow_graphic_id", .int self.snow_graphic_id),
    (lit "destruction_graphic_id", .int self.destruction_graphic_id),
    (lit "destruction_rubble_graphic_id", .int self.destruction_rubble_graphic_id),
    (lit "researching_graphic", .int self.researching_graphic),
    (lit "research_completed_graphic", .int self.research_completed_graphic),
    (lit "adjacent_mode", .int self.adjacent_mode),
    (lit "graphics_angle", .int self.graphics_angle),
    (lit "disappears_when_built", .int self.disappears_when_built),
    (lit "stack_unit_id", .int self.stack_unit_id),
    (lit "foundation_terrain_id", .int self.foundation_terrain_id),
    (lit "old_overlap_id", .int self.old_overlap_id),
    (lit "tech_id", .int self.tech_id),
    (lit "can_burn", .int self.can_burn),
    (lit "annexes", .list (self.annexes.map BuildingAnnex.asdict)),
    (lit "head_unit", .int self.head_unit),
    (lit "transform_unit", .int self.transform_unit),
    (lit "transform_sound", .int self.transform_sound),
    (lit "construction_sound", .int self.construction_sound),
    (lit "wwise_transform_sound_id", .int self.wwise_transform_sound_id),
    (lit "wwise_construction_sound_id", .int self.wwise_construction_sound_id),
    (lit "garrison_type", .int self.garrison_type),
    (lit "garrison_heal_rate", .float self.garrison_heal_rate),
    (lit "garrison_repair_rate", .float self.garrison_repair_rate),
    (lit "pile_unit", .int self.pile_unit),
    (lit "looting_table", .list (self.looting_table.map .int))]

/-- `dataclasses.asdict` of a `Unit` — fields as in `/repo/src/genieutils/unit.py:1050-1133`. -/
def Unit.asdict (old : Bool) (self : Unit) : PyTree :=
  .dict [
    (lit "type", .int self.type),
    (lit "id", .int self.id),
    (lit "language_dll_name", .int self.language_dll_name),
    (lit "language_dll_creation", .int self.language_dll_creation),
    (lit "class_", .int self.class_),
    (lit "standing_graphic", .list (self.standing_graphic.map .int)),
    (lit "dying_graphic", .int self.dying_graphic),
    (lit "undead_graphic", .int self.undead_graphic),
    (lit "undead_mode", .int self.undead_mode),
    (lit "hit_points", .int self.hit_points),
    (lit "line_of_sight", .float self.line_of_sight),
    (lit "garrison_capacity", .int self.garrison_capacity),
    (lit "collision_size_x", .float self.collision_size_x),
    (lit "collision_size_y", .float self.collision_size_y),
    (lit "collision_size_z", .float self.collision_size_z),
    (lit "train_sound", .int self.train_sound),
    (lit "damage_sound", .int self.damage_sound),
    (lit "dead_unit_id", .int self.dead_unit_id),
    (lit "blood_unit_id", .int self.blood_unit_id),
    (lit "sort_number", .int self.sort_number),
    (lit "can_be_built_on", .int self.can_be_built_on),
    (lit "icon_id", .int self.icon_id),
    (lit "hide_in_editor", .int self.hide_in_editor),
    (lit "old_portrait_pict", .int self.old_portrait_pict),
    (lit "enabled", .int self.enabled),
    (lit "disabled", .int self.disabled),
    (lit "placement_side_terrain", .list (self.placement_side_terrain.map .int)),
    (lit "placement_terrain", .list (self.placement_terrain.map .int)),
    (lit "clearance_size", .list (self.clearance_size.map .float)),
    (lit "hill_mode", .int self.hill_mode),
    (lit "fog_visibility", .int self.fog_visibility),
    (lit "terrain_restriction", .int self.terrain_restriction),
    (lit "fly_mode", .int self.fly_mode),
    (lit "resource_capacity", .int self.resource_capacity),
    (lit "resource_decay", .float self.resource_decay),
    (lit "blast_defense_level", .int self.blast_defense_level),
    (lit "combat_level", .int self.combat_level),
    (lit "interaction_mode", .int self.interaction_mode),
    (lit "minimap_mode", .int self.minimap_mode),
    (lit "interface_kind", .int self.interface_kind),
    (lit "multiple_attribute_mode", .float self.multiple_attribute_mode),
    (lit "minimap_color", .int self.minimap_color),
    (lit "language_dll_help", .int self.language_dll_help),
    (lit "language_dll_hotkey_text", .int self.language_dll_hotkey_text),
    (lit "hot_key", .int self.hot_key),
    (lit "recyclable", .int self.recyclable),
    (lit "enable_auto_gather", .int self.enable_auto_gather),
    (lit "create_doppelganger_on_death", .int self.create_doppelganger_on_death),
    (lit "resource_gather_group", .int self.resource_gather_group),
    (lit "occlusion_mode", .int self.occlusion_mode),
    (lit "obstruction_type", .int self.obstruction_type),
    (lit "obstruction_class", .int self.obstruction_class),
    (lit "trait", .int self.trait),
    (lit "civilization", .int self.civilization),
    (lit "nothing", .int self.nothing),
    (lit "selection_effect", .int self.selection_effect),
    (lit "editor_selection_colour", .int self.editor_selection_colour),
    (lit "outline_size_x", .float self.outline_size_x),
    (lit "outline_size_y", .float self.outline_size_y),
    (lit "outline_size_z", .float self.outline_size_z),
    (lit "scenario_triggers_1", .int self.scenario_triggers_1),
    (lit "scenario_triggers_2", .int self.scenario_triggers_2),
    (lit "resource_storages", .list (self.resource_storages.map ResourceStorage.asdict)),
    (lit "damage_graphics", .list (self.damage_graphics.map DamageGraphic.asdict)),
    (lit "selection_sound", .int self.selection_sound),
    (lit "dying_sound", .int self.dying_sound),
    (lit "wwise_train_sound_id", .int self.wwise_train_sound_id),
    (lit "wwise_damage_sound_id", .int self.wwise_damage_sound_id),
    (lit "wwise_selection_sound_id", .int self.wwise_selection_sound_id),
    (lit "wwise_dying_sound_id", .int self.wwise_dying_sound_id),
    (lit "old_attack_reaction", .int self.old_attack_reaction),
    (lit "convert_terrain", .int self.convert_terrain),
    (lit "name", .str self.name),
    (lit "copy_id", .int self.copy_id),
    (lit "base_id", .int self.base_id),
    (lit "speed", optTree .float self.speed),
    (lit "dead_fish", optTree DeadFish.asdict self.dead_fish),
    (lit "bird", optTree Bird.asdict self.bird),
    (lit "type_50", optTree Type50.asdict self.type_50),
    (lit "projectile", optTree Projectile.asdict self.projectile),
    (lit "creatable", optTree (Creatable.asdict old) self.creatable),
    (lit "building", optTree Building.asdict self.building)]

/-- `dataclasses.asdict` of a `UnitHeaders` — fields as in `/repo/src/genieutils/unitheaders.py:8-11`. -/
def UnitHeaders.asdict (self : UnitHeaders) : PyTree :=
  .dict [
    (lit "exists", .int self.exists_),
    (lit "task_list", optTree (fun l => .list (l.map Task.asdict)) self.task_list)]

/-- `dataclasses.asdict` of a `Civ` — fields as in `/repo/src/genieutils/civ.py:8-16`. -/
def Civ.asdict (old : Bool) (self : Civ) : PyTree :=
  .dict [
    (lit "player_type", .int self.player_type),
    (lit "name", .str self.name),
    (lit "tech_tree_id", .int self.tech_tree_id),
    (lit "team_bonus_id", .int self.team_bonus_id),
    (lit "resources", .list (self.resources.map .float)),
    (lit "icon_set", .int self.icon_set),
    (lit "units", .list (self.units.map (optTree (Unit.asdict old))))]

/-- `dataclasses.asdict` of a `DatFile` — fields as in `/repo/src/genieutils/datfile.py:21-43`. -/
def DatFile.asdict (old : Bool) (self : DatFile) : PyTree :=
  .dict [
    (lit "version", .str self.version),
    (lit "float_ptr_terrain_tables", .list (self.float_ptr_terrain_tables.map .int)),
    (lit "terrain_pass_graphic_pointers", .list (self.terrain_pass_graphic_pointers.map .int)),
    (lit "terrain_restrictions", .list (self.terrain_restrictions.map TerrainRestriction.asdict)),
    (lit "player_colours", .list (self.player_colours.map PlayerColour.asdict)),
    (lit "sounds", .list (self.sounds.map Sound.asdict)),
    (lit "graphics", .list (self.graphics.map (optTree Graphic.asdict))),
    (lit "terrain_block", TerrainBlock.asdict self.terrain_block),
    (lit "random_maps", RandomMaps.asdict self.random_maps),
    (lit "effects", .list (self.effects.map Effect.asdict)),
    (lit "unit_headers", .list (self.unit_headers.map UnitHeaders.asdict)),
    (lit "civs", .list (self.civs.map (Civ.asdict old))),
    (lit "techs", .list (self.techs.map Tech.asdict)),
    (lit "time_slice", .int self.time_slice),
    (lit "unit_kill_rate", .int self.unit_kill_rate),
    (lit "unit_kill_total", .int self.unit_kill_total),
    (lit "unit_hit_point_rate", .int self.unit_hit_point_rate),
    (lit "unit_hit_point_total", .int self.unit_hit_point_total),
    (lit "razing_kill_rate", .int self.razing_kill_rate),
    (lit "razing_kill_total", .int self.razing_kill_total),
    (lit "tech_tree", TechTree.asdict self.tech_tree)]

end Genie
