import Verif.Model.Heap
import Verif.Model.Datfile
/-!
# `from_bytes` of every class, building objects

The `from_bytes` functions of `/repo/src/genieutils` a second time, statement by statement, on a heap: `[…]`, `(…, …)` and `Class(…)`
create objects, everything read into a field is the object the reader returned.  The attributes of an instance are listed in the order of
the class definition.  (Generated by `tools/gen_heap.py`.)
-/

set_option linter.unusedVariables false

namespace Genie
open HReader

/-- `EffectCommand.from_bytes` — `/repo/src/genieutils/effect.py:16-23`. -/
def EffectCommand.build : HReader HVal := do
  let type ← lift (readInt8)
  let a ← lift (readInt16)
  let b ← lift (readInt16)
  let c ← lift (readInt16)
  let d ← lift (readFloat)
  alloc (.record (lit "EffectCommand") [
    (lit "type", .int type),
    (lit "a", .int a),
    (lit "b", .int b),
    (lit "c", .int c),
    (lit "d", .float d)])

/-- `Effect.from_bytes` — `/repo/src/genieutils/effect.py:41-48`. -/
def Effect.build : HReader HVal := do
  let name ← lift (readDebugString)
  let effect_command_count ← lift (readInt16)
  let effect_commands ← HReader.readClassArray EffectCommand.build effect_command_count
  alloc (.record (lit "Effect") [
    (lit "name", .str name),
    (lit "effect_commands", effect_commands)])

/-- `SoundItem.from_bytes` — `/repo/src/genieutils/sound.py:16-23`. -/
def SoundItem.build : HReader HVal := do
  let filename ← lift (readDebugString)
  let resource_id ← lift (readInt32)
  let probability ← lift (readInt16)
  let civilization ← lift (readInt16)
  let icon_set ← lift (readInt16)
  alloc (.record (lit "SoundItem") [
    (lit "filename", .str filename),
    (lit "resource_id", .int resource_id),
    (lit "probability", .int probability),
    (lit "civilization", .int civilization),
    (lit "icon_set", .int icon_set)])

/-- `Sound.from_bytes` — `/repo/src/genieutils/sound.py:44-57`. -/
def Sound.build : HReader HVal := do
  let id_ ← lift (readInt16)
  let play_delay ← lift (readInt16)
  let items_size ← lift (readInt16)
  let cache_time ← lift (readInt32)
  let total_probability ← lift (readInt16)
  let items ← HReader.readClassArray SoundItem.build items_size
  alloc (.record (lit "Sound") [
    (lit "id", .int id_),
    (lit "play_delay", .int play_delay),
    (lit "cache_time", .int cache_time),
    (lit "total_probability", .int total_probability),
    (lit "items", items)])

/-- `PlayerColour.from_bytes` — `/repo/src/genieutils/playercolour.py:20-31`. -/
def PlayerColour.build : HReader HVal := do
  let id ← lift (readInt32)
  let player_color_base ← lift (readInt32)
  let unit_outline_color ← lift (readInt32)
  let unit_selection_color_1 ← lift (readInt32)
  let unit_selection_color_2 ← lift (readInt32)
  let minimap_color ← lift (readInt32)
  let minimap_color_2 ← lift (readInt32)
  let minimap_color_3 ← lift (readInt32)
  let statistics_text ← lift (readInt32)
  alloc (.record (lit "PlayerColour") [
    (lit "id", .int id),
    (lit "player_color_base", .int player_color_base),
    (lit "unit_outline_color", .int unit_outline_color),
    (lit "unit_selection_color_1", .int unit_selection_color_1),
    (lit "unit_selection_color_2", .int unit_selection_color_2),
    (lit "minimap_color", .int minimap_color),
    (lit "minimap_color_2", .int minimap_color_2),
    (lit "minimap_color_3", .int minimap_color_3),
    (lit "statistics_text", .int statistics_text)])

/-- `GraphicDelta.from_bytes` — `/repo/src/genieutils/graphic.py:18-27`. -/
def GraphicDelta.build : HReader HVal := do
  let graphic_id ← lift (readInt16)
  let padding_1 ← lift (readInt16)
  let sprite_ptr ← lift (readInt32)
  let offset_x ← lift (readInt16)
  let offset_y ← lift (readInt16)
  let display_angle ← lift (readInt16)
  let padding_2 ← lift (readInt16)
  alloc (.record (lit "GraphicDelta") [
    (lit "graphic_id", .int graphic_id),
    (lit "padding_1", .int padding_1),
    (lit "sprite_ptr", .int sprite_ptr),
    (lit "offset_x", .int offset_x),
    (lit "offset_y", .int offset_y),
    (lit "display_angle", .int display_angle),
    (lit "padding_2", .int padding_2)])

/-- `GraphicAngleSound.from_bytes` — `/repo/src/genieutils/graphic.py:54-65`. -/
def GraphicAngleSound.build : HReader HVal := do
  let frame_num ← lift (readInt16)
  let sound_id ← lift (readInt16)
  let wwise_sound_id ← lift (readInt32)
  let frame_num_2 ← lift (readInt16)
  let sound_id_2 ← lift (readInt16)
  let wwise_sound_id_2 ← lift (readInt32)
  let frame_num_3 ← lift (readInt16)
  let sound_id_3 ← lift (readInt16)
  let wwise_sound_id_3 ← lift (readInt32)
  alloc (.record (lit "GraphicAngleSound") [
    (lit "frame_num", .int frame_num),
    (lit "sound_id", .int sound_id),
    (lit "wwise_sound_id", .int wwise_sound_id),
    (lit "frame_num_2", .int frame_num_2),
    (lit "sound_id_2", .int sound_id_2),
    (lit "wwise_sound_id_2", .int wwise_sound_id_2),
    (lit "frame_num_3", .int frame_num_3),
    (lit "sound_id_3", .int sound_id_3),
    (lit "wwise_sound_id_3", .int wwise_sound_id_3)])

/-- `Graphic.from_bytes` — `/repo/src/genieutils/graphic.py:109-160`. -/
def Graphic.build : HReader HVal := do
  let name ← lift (readDebugString)
  let file_name ← lift (readDebugString)
  let particle_effect_name ← lift (readDebugString)
  let slp ← lift (readInt32)
  let is_loaded ← lift (readInt8)
  let old_color_flag ← lift (readInt8)
  let layer ← lift (readInt8)
  let player_color ← lift (readInt16)
  let transparent_selection ← lift (readInt8)
  let coordinates ← HReader.readInt16Array4
  let delta_count ← lift (readInt16)
  let sound_id ← lift (readInt16)
  let wwise_sound_id ← lift (readInt32)
  let angle_sounds_used ← lift (readInt8)
  let frame_count ← lift (readInt16)
  let angle_count ← lift (readInt16)
  let speed_multiplier ← lift (readFloat)
  let frame_duration ← lift (readFloat)
  let replay_delay ← lift (readFloat)
  let sequence_type ← lift (readInt8)
  let id_ ← lift (readInt16)
  let mirroring_mode ← lift (readInt8)
  let editor_flag ← lift (readInt8)
  let deltas ← HReader.readClassArray GraphicDelta.build delta_count
  let angle_sounds ← HReader.readOrEmpty (angle_sounds_used ≠ 0) (HReader.readClassArray GraphicAngleSound.build angle_count (countStored := true))
  alloc (.record (lit "Graphic") [
    (lit "name", .str name),
    (lit "file_name", .str file_name),
    (lit "particle_effect_name", .str particle_effect_name),
    (lit "slp", .int slp),
    (lit "is_loaded", .int is_loaded),
    (lit "old_color_flag", .int old_color_flag),
    (lit "layer", .int layer),
    (lit "player_color", .int player_color),
    (lit "transparent_selection", .int transparent_selection),
    (lit "coordinates", coordinates),
    (lit "sound_id", .int sound_id),
    (lit "wwise_sound_id", .int wwise_sound_id),
    (lit "angle_sounds_used", .int angle_sounds_used),
    (lit "frame_count", .int frame_count),
    (lit "angle_count", .int angle_count),
    (lit "speed_multiplier", .float speed_multiplier),
    (lit "frame_duration", .float frame_duration),
    (lit "replay_delay", .float replay_delay),
    (lit "sequence_type", .int sequence_type),
    (lit "id", .int id_),
    (lit "mirroring_mode", .int mirroring_mode),
    (lit "editor_flag", .int editor_flag),
    (lit "deltas", deltas),
    (lit "angle_sounds", angle_sounds)])

/-- `TerrainPassGraphic.from_bytes` — `/repo/src/genieutils/terrainrestriction.py:15-21`. -/
def TerrainPassGraphic.build : HReader HVal := do
  let exit_tile_sprite_id ← lift (readInt32)
  let enter_tile_sprite_id ← lift (readInt32)
  let walk_tile_sprite_id ← lift (readInt32)
  let walk_sprite_rate ← lift (readInt32)
  alloc (.record (lit "TerrainPassGraphic") [
    (lit "exit_tile_sprite_id", .int exit_tile_sprite_id),
    (lit "enter_tile_sprite_id", .int enter_tile_sprite_id),
    (lit "walk_tile_sprite_id", .int walk_tile_sprite_id),
    (lit "walk_sprite_rate", .int walk_sprite_rate)])

/-- `TerrainRestriction.from_bytes_with_count` — `/repo/src/genieutils/terrainrestriction.py:38-42`. -/
def TerrainRestriction.buildWithCount (terrain_count : Int) : HReader HVal := do
  let passable_buildable_dmg_multiplier ← HReader.readFloatArray terrain_count
  let terrain_pass_graphics ← HReader.readClassArray TerrainPassGraphic.build terrain_count
  alloc (.record (lit "TerrainRestriction") [
    (lit "passable_buildable_dmg_multiplier", passable_buildable_dmg_multiplier),
    (lit "terrain_pass_graphics", terrain_pass_graphics)])

/-- `FrameData.from_bytes` — `/repo/src/genieutils/terrainblock.py:14-19`. -/
def FrameData.build : HReader HVal := do
  let frame_count ← lift (readInt16)
  let angle_count ← lift (readInt16)
  let shape_id ← lift (readInt16)
  alloc (.record (lit "FrameData") [
    (lit "frame_count", .int frame_count),
    (lit "angle_count", .int angle_count),
    (lit "shape_id", .int shape_id)])

/-- `Terrain.from_bytes` — `/repo/src/genieutils/terrainblock.py:71-111`. -/
def Terrain.build : HReader HVal := do
  let enabled ← lift (readInt8)
  let random ← lift (readInt8)
  let is_water ← lift (readInt8)
  let hide_in_editor ← lift (readInt8)
  let string_id ← lift (readInt32)
  let name ← lift (readDebugString)
  let name_2 ← lift (readDebugString)
  let slp ← lift (readInt32)
  let shape_ptr ← lift (readInt32)
  let sound_id ← lift (readInt32)
  let wwise_sound_id ← lift (readInt32 (signed := false))
  let wwise_sound_stop_id ← lift (readInt32 (signed := false))
  let blend_priority ← lift (readInt32)
  let blend_type ← lift (readInt32)
  let overlay_mask_name ← lift (readDebugString)
  let colors ← HReader.readInt8Array3
  let cliff_colors ← HReader.readInt8Array2
  let passable_terrain ← lift (readInt8)
  let impassable_terrain ← lift (readInt8)
  let is_animated ← lift (readInt8)
  let animation_frames ← lift (readInt16)
  let pause_frames ← lift (readInt16)
  let interval ← lift (readFloat)
  let pause_between_loops ← lift (readFloat)
  let frame ← lift (readInt16)
  let draw_frame ← lift (readInt16)
  let animate_last ← lift (readFloat)
  let frame_changed ← lift (readInt8)
  let drawn ← lift (readInt8)
  let frame_data ← HReader.readClassArray FrameData.build TILE_TYPE_COUNT
  let terrain_to_draw ← lift (readInt16)
  let terrain_dimensions ← HReader.readInt16Array2
  let terrain_unit_masked_density ← HReader.readInt16Array TERRAIN_UNITS_SIZE
  let terrain_unit_id ← HReader.readInt16Array TERRAIN_UNITS_SIZE
  let terrain_unit_density ← HReader.readInt16Array TERRAIN_UNITS_SIZE
  let terrain_unit_centering ← HReader.readInt8Array TERRAIN_UNITS_SIZE
  let number_of_terrain_units_used ← lift (readInt16)
  let phantom ← lift (readInt16)
  alloc (.record (lit "Terrain") [
    (lit "enabled", .int enabled),
    (lit "random", .int random),
    (lit "is_water", .int is_water),
    (lit "hide_in_editor", .int hide_in_editor),
    (lit "string_id", .int string_id),
    (lit "name", .str name),
    (lit "name_2", .str name_2),
    (lit "slp", .int slp),
    (lit "shape_ptr", .int shape_ptr),
    (lit "sound_id", .int sound_id),
    (lit "wwise_sound_id", .int wwise_sound_id),
    (lit "wwise_sound_stop_id", .int wwise_sound_stop_id),
    (lit "blend_priority", .int blend_priority),
    (lit "blend_type", .int blend_type),
    (lit "overlay_mask_name", .str overlay_mask_name),
    (lit "colors", colors),
    (lit "cliff_colors", cliff_colors),
    (lit "passable_terrain", .int passable_terrain),
    (lit "impassable_terrain", .int impassable_terrain),
    (lit "is_animated", .int is_animated),
    (lit "animation_frames", .int animation_frames),
    (lit "pause_frames", .int pause_frames),
    (lit "interval", .float interval),
    (lit "pause_between_loops", .float pause_between_loops),
    (lit "frame", .int frame),
    (lit "draw_frame", .int draw_frame),
    (lit "animate_last", .float animate_last),
    (lit "frame_changed", .int frame_changed),
    (lit "drawn", .int drawn),
    (lit "frame_data", frame_data),
    (lit "terrain_to_draw", .int terrain_to_draw),
    (lit "terrain_dimensions", terrain_dimensions),
    (lit "terrain_unit_masked_density", terrain_unit_masked_density),
    (lit "terrain_unit_id", terrain_unit_id),
    (lit "terrain_unit_density", terrain_unit_density),
    (lit "terrain_unit_centering", terrain_unit_centering),
    (lit "number_of_terrain_units_used", .int number_of_terrain_units_used),
    (lit "phantom", .int phantom)])

/-- `TileSize.from_bytes` — `/repo/src/genieutils/terrainblock.py:163-168`. -/
def TileSize.build : HReader HVal := do
  let width ← lift (readInt16)
  let height ← lift (readInt16)
  let delta_y ← lift (readInt16)
  alloc (.record (lit "TileSize") [
    (lit "width", .int width),
    (lit "height", .int height),
    (lit "delta_y", .int delta_y)])

/-- `TerrainBlock.from_bytes` — `/repo/src/genieutils/terrainblock.py:216-252`. -/
def TerrainBlock.build : HReader HVal := do
  let virtual_function_ptr ← lift (readInt32 (signed := false))
  let map_pointer ← lift (readInt32 (signed := false))
  let map_width ← lift (readInt32)
  let map_height ← lift (readInt32)
  let world_width ← lift (readInt32)
  let world_height ← lift (readInt32)
  let tile_sizes ← HReader.readClassArray TileSize.build TILE_TYPE_COUNT
  let padding_ts ← lift (readInt16)
  let terrains ← HReader.readClassArray Terrain.build TERRAIN_COUNT
  let map_min_x ← lift (readFloat)
  let map_min_y ← lift (readFloat)
  let map_max_x ← lift (readFloat)
  let map_max_y ← lift (readFloat)
  let map_max_x_plus_1 ← lift (readFloat)
  let map_max_y_plus_1 ← lift (readFloat)
  let terrains_used_2 ← lift (readInt16)
  let borders_used ← lift (readInt16)
  let max_terrain ← lift (readInt16)
  let tile_width ← lift (readInt16)
  let tile_height ← lift (readInt16)
  let tile_half_height ← lift (readInt16)
  let tile_half_width ← lift (readInt16)
  let elev_height ← lift (readInt16)
  let cur_row ← lift (readInt16)
  let cur_col ← lift (readInt16)
  let block_beg_row ← lift (readInt16)
  let block_end_row ← lift (readInt16)
  let block_beg_col ← lift (readInt16)
  let block_end_col ← lift (readInt16)
  let search_map_ptr ← lift (readInt32 (signed := false))
  let search_map_rows_ptr ← lift (readInt32 (signed := false))
  let any_frame_change ← lift (readInt8)
  let map_visible_flag ← lift (readInt8)
  let fog_flag ← lift (readInt8)
  alloc (.record (lit "TerrainBlock") [
    (lit "virtual_function_ptr", .int virtual_function_ptr),
    (lit "map_pointer", .int map_pointer),
    (lit "map_width", .int map_width),
    (lit "map_height", .int map_height),
    (lit "world_width", .int world_width),
    (lit "world_height", .int world_height),
    (lit "tile_sizes", tile_sizes),
    (lit "padding_ts", .int padding_ts),
    (lit "terrains", terrains),
    (lit "map_min_x", .float map_min_x),
    (lit "map_min_y", .float map_min_y),
    (lit "map_max_x", .float map_max_x),
    (lit "map_max_y", .float map_max_y),
    (lit "map_max_x_plus_1", .float map_max_x_plus_1),
    (lit "map_max_y_plus_1", .float map_max_y_plus_1),
    (lit "terrains_used_2", .int terrains_used_2),
    (lit "borders_used", .int borders_used),
    (lit "max_terrain", .int max_terrain),
    (lit "tile_width", .int tile_width),
    (lit "tile_height", .int tile_height),
    (lit "tile_half_height", .int tile_half_height),
    (lit "tile_half_width", .int tile_half_width),
    (lit "elev_height", .int elev_height),
    (lit "cur_row", .int cur_row),
    (lit "cur_col", .int cur_col),
    (lit "block_beg_row", .int block_beg_row),
    (lit "block_end_row", .int block_end_row),
    (lit "block_beg_col", .int block_beg_col),
    (lit "block_end_col", .int block_end_col),
    (lit "search_map_ptr", .int search_map_ptr),
    (lit "search_map_rows_ptr", .int search_map_rows_ptr),
    (lit "any_frame_change", .int any_frame_change),
    (lit "map_visible_flag", .int map_visible_flag),
    (lit "fog_flag", .int fog_flag)])

/-- `MapUnit.from_bytes` — `/repo/src/genieutils/randommaps.py:24-39`. -/
def MapUnit.build : HReader HVal := do
  let unit ← lift (readInt32)
  let host_terrain ← lift (readInt32)
  let group_placing ← lift (readInt8)
  let scale_flag ← lift (readInt8)
  let padding_1 ← lift (readInt16)
  let objects_per_group ← lift (readInt32)
  let fluctuation ← lift (readInt32)
  let groups_per_player ← lift (readInt32)
  let group_arena ← lift (readInt32)
  let player_id ← lift (readInt32)
  let set_place_for_all_players ← lift (readInt32)
  let min_distance_to_players ← lift (readInt32)
  let max_distance_to_players ← lift (readInt32)
  alloc (.record (lit "MapUnit") [
    (lit "unit", .int unit),
    (lit "host_terrain", .int host_terrain),
    (lit "group_placing", .int group_placing),
    (lit "scale_flag", .int scale_flag),
    (lit "padding_1", .int padding_1),
    (lit "objects_per_group", .int objects_per_group),
    (lit "fluctuation", .int fluctuation),
    (lit "groups_per_player", .int groups_per_player),
    (lit "group_arena", .int group_arena),
    (lit "player_id", .int player_id),
    (lit "set_place_for_all_players", .int set_place_for_all_players),
    (lit "min_distance_to_players", .int min_distance_to_players),
    (lit "max_distance_to_players", .int max_distance_to_players)])

/-- `MapTerrain.from_bytes` — `/repo/src/genieutils/randommaps.py:69-77`. -/
def MapTerrain.build : HReader HVal := do
  let proportion ← lift (readInt32)
  let terrain ← lift (readInt32)
  let clump_count ← lift (readInt32)
  let edge_spacing ← lift (readInt32)
  let placement_terrain ← lift (readInt32)
  let clumpiness ← lift (readInt32)
  alloc (.record (lit "MapTerrain") [
    (lit "proportion", .int proportion),
    (lit "terrain", .int terrain),
    (lit "clump_count", .int clump_count),
    (lit "edge_spacing", .int edge_spacing),
    (lit "placement_terrain", .int placement_terrain),
    (lit "clumpiness", .int clumpiness)])

/-- `MapLand.from_bytes` — `/repo/src/genieutils/randommaps.py:109-126`. -/
def MapLand.build : HReader HVal := do
  let land_id ← lift (readInt32)
  let terrain ← lift (readInt32 (signed := false))
  let land_spacing ← lift (readInt32)
  let base_size ← lift (readInt32)
  let zone ← lift (readInt8)
  let placement_type ← lift (readInt8)
  let padding_1 ← lift (readInt16)
  let base_x ← lift (readInt32)
  let base_y ← lift (readInt32)
  let land_proportion ← lift (readInt8)
  let by_player_flag ← lift (readInt8)
  let padding_2 ← lift (readInt16)
  let start_area_radius ← lift (readInt32)
  let terrain_edge_fade ← lift (readInt32)
  let clumpiness ← lift (readInt32)
  alloc (.record (lit "MapLand") [
    (lit "land_id", .int land_id),
    (lit "terrain", .int terrain),
    (lit "land_spacing", .int land_spacing),
    (lit "base_size", .int base_size),
    (lit "zone", .int zone),
    (lit "placement_type", .int placement_type),
    (lit "padding_1", .int padding_1),
    (lit "base_x", .int base_x),
    (lit "base_y", .int base_y),
    (lit "land_proportion", .int land_proportion),
    (lit "by_player_flag", .int by_player_flag),
    (lit "padding_2", .int padding_2),
    (lit "start_area_radius", .int start_area_radius),
    (lit "terrain_edge_fade", .int terrain_edge_fade),
    (lit "clumpiness", .int clumpiness)])

/-- `MapElevation.from_bytes` — `/repo/src/genieutils/randommaps.py:158-166`. -/
def MapElevation.build : HReader HVal := do
  let proportion ← lift (readInt32)
  let terrain ← lift (readInt32)
  let clump_count ← lift (readInt32)
  let base_terrain ← lift (readInt32)
  let base_elevation ← lift (readInt32)
  let tile_spacing ← lift (readInt32)
  alloc (.record (lit "MapElevation") [
    (lit "proportion", .int proportion),
    (lit "terrain", .int terrain),
    (lit "clump_count", .int clump_count),
    (lit "base_terrain", .int base_terrain),
    (lit "base_elevation", .int base_elevation),
    (lit "tile_spacing", .int tile_spacing)])

/-- `MapInfo.from_bytes` — `/repo/src/genieutils/randommaps.py:205-251`. -/
def MapInfo.build : HReader HVal := do
  let map_id ← lift (readInt32)
  let border_south_west ← lift (readInt32)
  let border_north_west ← lift (readInt32)
  let border_north_east ← lift (readInt32)
  let border_south_east ← lift (readInt32)
  let border_usage ← lift (readInt32)
  let water_shape ← lift (readInt32)
  let base_terrain ← lift (readInt32)
  let land_coverage ← lift (readInt32)
  let unused_id ← lift (readInt32)
  let map_lands_size ← lift (readInt32 (signed := false))
  let map_lands_ptr ← lift (readInt32)
  let map_lands ← HReader.readClassArray MapLand.build map_lands_size
  let map_terrains_size ← lift (readInt32 (signed := false))
  let map_terrains_ptr ← lift (readInt32)
  let map_terrains ← HReader.readClassArray MapTerrain.build map_terrains_size
  let map_units_size ← lift (readInt32 (signed := false))
  let map_units_ptr ← lift (readInt32)
  let map_units ← HReader.readClassArray MapUnit.build map_units_size
  let map_elevations_size ← lift (readInt32 (signed := false))
  let map_elevations_ptr ← lift (readInt32)
  let map_elevations ← HReader.readClassArray MapElevation.build map_elevations_size
  alloc (.record (lit "MapInfo") [
    (lit "map_id", .int map_id),
    (lit "border_south_west", .int border_south_west),
    (lit "border_north_west", .int border_north_west),
    (lit "border_north_east", .int border_north_east),
    (lit "border_south_east", .int border_south_east),
    (lit "border_usage", .int border_usage),
    (lit "water_shape", .int water_shape),
    (lit "base_terrain", .int base_terrain),
    (lit "land_coverage", .int land_coverage),
    (lit "unused_id", .int unused_id),
    (lit "map_lands_size", .int map_lands_size),
    (lit "map_lands_ptr", .int map_lands_ptr),
    (lit "map_lands", map_lands),
    (lit "map_terrains_size", .int map_terrains_size),
    (lit "map_terrains_ptr", .int map_terrains_ptr),
    (lit "map_terrains", map_terrains),
    (lit "map_units_size", .int map_units_size),
    (lit "map_units_ptr", .int map_units_ptr),
    (lit "map_units", map_units),
    (lit "map_elevations_size", .int map_elevations_size),
    (lit "map_elevations_ptr", .int map_elevations_ptr),
    (lit "map_elevations", map_elevations)])

/-- `RandomMaps.from_bytes` — `/repo/src/genieutils/randommaps.py:287-296`. -/
def RandomMaps.build : HReader HVal := do
  let random_map_count ← lift (readInt32 (signed := false))
  let random_maps_ptr ← lift (readInt32)
  let map_info_1 ← HReader.readClassArray MapInfo.build random_map_count
  let map_info_2 ← HReader.readClassArray MapInfo.build random_map_count
  alloc (.record (lit "RandomMaps") [
    (lit "random_maps_ptr", .int random_maps_ptr),
    (lit "map_info_1", map_info_1),
    (lit "map_info_2", map_info_2)])

/-- `ResearchResourceCost.from_bytes` — `/repo/src/genieutils/tech.py:14-19`. -/
def ResearchResourceCost.build : HReader HVal := do
  let type ← lift (readInt16)
  let amount ← lift (readInt16)
  let flag ← lift (readInt8)
  alloc (.record (lit "ResearchResourceCost") [
    (lit "type", .int type),
    (lit "amount", .int amount),
    (lit "flag", .int flag)])

/-- `ResearchLocation.from_bytes` — `/repo/src/genieutils/tech.py:37-43`. -/
def ResearchLocation.build : HReader HVal := do
  let location_id ← lift (readInt16)
  let research_time ← lift (readInt16)
  let button_id ← lift (readInt8)
  let hot_key_id ← lift (readInt32)
  alloc (.record (lit "ResearchLocation") [
    (lit "location_id", .int location_id),
    (lit "research_time", .int research_time),
    (lit "button_id", .int button_id),
    (lit "hot_key_id", .int hot_key_id)])

/-- `Tech.from_bytes_84` — `/repo/src/genieutils/tech.py:79-120`. -/
def Tech.build84 : HReader HVal := do
  let required_techs ← HReader.readInt16Array6
  let resource_costs ← HReader.readClassArray3 ResearchResourceCost.build
  let required_tech_count ← lift (readInt16)
  let civ ← lift (readInt16)
  let full_tech_mode ← lift (readInt16)
  let research_location ← lift (readInt16)
  let language_dll_name ← lift (readInt32)
  let language_dll_description ← lift (readInt32)
  let research_time ← lift (readInt16)
  let effect_id ← lift (readInt16)
  let type ← lift (readInt16)
  let icon_id ← lift (readInt16)
  let button_id ← lift (readInt8)
  let language_dll_help ← lift (readInt32)
  let language_dll_tech_tree ← lift (readInt32)
  let hot_key ← lift (readInt32)
  let name ← lift (readDebugString)
  let repeatable ← lift (readInt8)
  let item ← alloc (.record (lit "ResearchLocation") [(lit "location_id", .int research_location), (lit "research_time", .int research_time), (lit "button_id", .int button_id), (lit "hot_key_id", .int hot_key)])
  let research_locations ← alloc (.list [item])
  alloc (.record (lit "Tech") [
    (lit "required_techs", required_techs),
    (lit "resource_costs", resource_costs),
    (lit "required_tech_count", .int required_tech_count),
    (lit "civ", .int civ),
    (lit "full_tech_mode", .int full_tech_mode),
    (lit "language_dll_name", .int language_dll_name),
    (lit "language_dll_description", .int language_dll_description),
    (lit "effect_id", .int effect_id),
    (lit "type", .int type),
    (lit "icon_id", .int icon_id),
    (lit "language_dll_help", .int language_dll_help),
    (lit "language_dll_tech_tree", .int language_dll_tech_tree),
    (lit "name", .str name),
    (lit "repeatable", .int repeatable),
    (lit "research_locations", research_locations)])

/-- `Tech.from_bytes_88` — `/repo/src/genieutils/tech.py:123-156`. -/
def Tech.build88 : HReader HVal := do
  let required_techs ← HReader.readInt16Array6
  let resource_costs ← HReader.readClassArray3 ResearchResourceCost.build
  let required_tech_count ← lift (readInt16)
  let civ ← lift (readInt16)
  let full_tech_mode ← lift (readInt16)
  let language_dll_name ← lift (readInt32)
  let language_dll_description ← lift (readInt32)
  let effect_id ← lift (readInt16)
  let type ← lift (readInt16)
  let icon_id ← lift (readInt16)
  let language_dll_help ← lift (readInt32)
  let language_dll_tech_tree ← lift (readInt32)
  let name ← lift (readDebugString)
  let repeatable ← lift (readInt8)
  let research_location_count ← lift (readInt16)
  let research_locations ← HReader.readClassArray ResearchLocation.build research_location_count
  alloc (.record (lit "Tech") [
    (lit "required_techs", required_techs),
    (lit "resource_costs", resource_costs),
    (lit "required_tech_count", .int required_tech_count),
    (lit "civ", .int civ),
    (lit "full_tech_mode", .int full_tech_mode),
    (lit "language_dll_name", .int language_dll_name),
    (lit "language_dll_description", .int language_dll_description),
    (lit "effect_id", .int effect_id),
    (lit "type", .int type),
    (lit "icon_id", .int icon_id),
    (lit "language_dll_help", .int language_dll_help),
    (lit "language_dll_tech_tree", .int language_dll_tech_tree),
    (lit "name", .str name),
    (lit "repeatable", .int repeatable),
    (lit "research_locations", research_locations)])

/-- `Tech.from_bytes` — `/repo/src/genieutils/tech.py:73-76`. -/
def Tech.build : HReader HVal := do
  let version ← lift getVersion
  if version.ge .VER_88 then Tech.build88
  else Tech.build84

/-- `Common.from_bytes` — `/repo/src/genieutils/techtree.py:14-19`. -/
def Common.build : HReader HVal := do
  let slots_used ← lift (readInt32)
  let unit_research ← HReader.readInt32Array10
  let mode ← HReader.readInt32Array10
  alloc (.record (lit "Common") [
    (lit "slots_used", .int slots_used),
    (lit "unit_research", unit_research),
    (lit "mode", mode)])

/-- `TechTreeAge.from_bytes` — `/repo/src/genieutils/techtree.py:44-71`. -/
def TechTreeAge.build : HReader HVal := do
  let id_ ← lift (readInt32)
  let status ← lift (readInt8)
  let buildings_count ← lift (readInt8)
  let buildings ← HReader.readInt32Array buildings_count
  let units_count ← lift (readInt8)
  let units ← HReader.readInt32Array units_count
  let techs_count ← lift (readInt8)
  let techs ← HReader.readInt32Array techs_count
  let common ← HReader.readClass Common.build
  let num_building_levels ← lift (readInt8)
  let buildings_per_zone ← HReader.readInt8Array10
  let group_length_per_zone ← HReader.readInt8Array10
  let max_age_length ← lift (readInt8)
  let line_mode ← lift (readInt32)
  alloc (.record (lit "TechTreeAge") [
    (lit "id", .int id_),
    (lit "status", .int status),
    (lit "buildings", buildings),
    (lit "units", units),
    (lit "techs", techs),
    (lit "common", common),
    (lit "num_building_levels", .int num_building_levels),
    (lit "buildings_per_zone", buildings_per_zone),
    (lit "group_length_per_zone", group_length_per_zone),
    (lit "max_age_length", .int max_age_length),
    (lit "line_mode", .int line_mode)])

/-- `BuildingConnection.from_bytes` — `/repo/src/genieutils/techtree.py:107-134`. -/
def BuildingConnection.build : HReader HVal := do
  let id_ ← lift (readInt32)
  let status ← lift (readInt8)
  let buildings_count ← lift (readInt8)
  let buildings ← HReader.readInt32Array buildings_count
  let units_count ← lift (readInt8)
  let units ← HReader.readInt32Array units_count
  let techs_count ← lift (readInt8)
  let techs ← HReader.readInt32Array techs_count
  let common ← HReader.readClass Common.build
  let location_in_age ← lift (readInt8)
  let units_techs_total ← HReader.readInt8Array5
  let units_techs_first ← HReader.readInt8Array5
  let line_mode ← lift (readInt32)
  let enabling_research ← lift (readInt32)
  alloc (.record (lit "BuildingConnection") [
    (lit "id", .int id_),
    (lit "status", .int status),
    (lit "buildings", buildings),
    (lit "units", units),
    (lit "techs", techs),
    (lit "common", common),
    (lit "location_in_age", .int location_in_age),
    (lit "units_techs_total", units_techs_total),
    (lit "units_techs_first", units_techs_first),
    (lit "line_mode", .int line_mode),
    (lit "enabling_research", .int enabling_research)])

/-- `UnitConnection.from_bytes` — `/repo/src/genieutils/techtree.py:169-192`. -/
def UnitConnection.build : HReader HVal := do
  let id_ ← lift (readInt32)
  let status ← lift (readInt8)
  let upper_building ← lift (readInt32)
  let common ← HReader.readClass Common.build
  let vertical_line ← lift (readInt32)
  let units_count ← lift (readInt8)
  let units ← HReader.readInt32Array units_count
  let location_in_age ← lift (readInt32)
  let required_research ← lift (readInt32)
  let line_mode ← lift (readInt32)
  let enabling_research ← lift (readInt32)
  alloc (.record (lit "UnitConnection") [
    (lit "id", .int id_),
    (lit "status", .int status),
    (lit "upper_building", .int upper_building),
    (lit "common", common),
    (lit "vertical_line", .int vertical_line),
    (lit "units", units),
    (lit "location_in_age", .int location_in_age),
    (lit "required_research", .int required_research),
    (lit "line_mode", .int line_mode),
    (lit "enabling_research", .int enabling_research)])

/-- `ResearchConnection.from_bytes` — `/repo/src/genieutils/techtree.py:224-249`. -/
def ResearchConnection.build : HReader HVal := do
  let id_ ← lift (readInt32)
  let status ← lift (readInt8)
  let upper_building ← lift (readInt32)
  let buildings_count ← lift (readInt8)
  let buildings ← HReader.readInt32Array buildings_count
  let units_count ← lift (readInt8)
  let units ← HReader.readInt32Array units_count
  let techs_count ← lift (readInt8)
  let techs ← HReader.readInt32Array techs_count
  let common ← HReader.readClass Common.build
  let vertical_line ← lift (readInt32)
  let location_in_age ← lift (readInt32)
  let line_mode ← lift (readInt32)
  alloc (.record (lit "ResearchConnection") [
    (lit "id", .int id_),
    (lit "status", .int status),
    (lit "upper_building", .int upper_building),
    (lit "buildings", buildings),
    (lit "units", units),
    (lit "techs", techs),
    (lit "common", common),
    (lit "vertical_line", .int vertical_line),
    (lit "location_in_age", .int location_in_age),
    (lit "line_mode", .int line_mode)])

/-- `TechTree.from_bytes` — `/repo/src/genieutils/techtree.py:278-294`. -/
def TechTree.build : HReader HVal := do
  let age_count ← lift (readInt8)
  let building_count ← lift (readInt8)
  let unit_count ← lift (readInt8)
  let research_count ← lift (readInt8)
  let total_unit_tech_groups ← lift (readInt32)
  let tech_tree_ages ← HReader.readClassArray TechTreeAge.build age_count
  let building_connections ← HReader.readClassArray BuildingConnection.build building_count
  let unit_connections ← HReader.readClassArray UnitConnection.build unit_count
  let research_connections ← HReader.readClassArray ResearchConnection.build research_count
  alloc (.record (lit "TechTree") [
    (lit "total_unit_tech_groups", .int total_unit_tech_groups),
    (lit "tech_tree_ages", tech_tree_ages),
    (lit "building_connections", building_connections),
    (lit "unit_connections", unit_connections),
    (lit "research_connections", research_connections)])

/-- `Task.from_bytes_84` — `/repo/src/genieutils/task.py:56-125`. -/
def Task.build84 : HReader HVal := do
  let vs ← lift (unpackFrom TASK_FORMAT TASK_FORMAT_LENGTH)
  HReader.popInt vs fun task_type vs =>
  HReader.popInt vs fun id_ vs =>
  HReader.popInt vs fun is_default vs =>
  HReader.popInt vs fun action_type vs =>
  HReader.popInt vs fun class_id vs =>
  HReader.popInt vs fun unit_id vs =>
  HReader.popInt vs fun terrain_id vs =>
  HReader.popInt vs fun resource_in vs =>
  HReader.popInt vs fun resource_multiplier vs =>
  HReader.popInt vs fun resource_out vs =>
  HReader.popInt vs fun unused_resource vs =>
  HReader.popFloat vs fun work_value_1 vs =>
  HReader.popFloat vs fun work_value_2 vs =>
  HReader.popFloat vs fun work_range vs =>
  HReader.popInt vs fun auto_search_targets vs =>
  HReader.popFloat vs fun search_wait_time vs =>
  HReader.popInt vs fun enable_targeting vs =>
  HReader.popInt vs fun combat_level_flag vs =>
  HReader.popInt vs fun gather_type vs =>
  HReader.popInt vs fun work_flag_2 vs =>
  HReader.popInt vs fun target_diplomacy vs =>
  HReader.popInt vs fun carry_check vs =>
  HReader.popInt vs fun pick_for_construction vs =>
  HReader.popInt vs fun moving_graphic_id vs =>
  HReader.popInt vs fun proceeding_graphic_id vs =>
  HReader.popInt vs fun working_graphic_id vs =>
  HReader.popInt vs fun carrying_graphic_id vs =>
  HReader.popInt vs fun resource_gathering_sound_id vs =>
  HReader.popInt vs fun resource_deposit_sound_id vs =>
  HReader.popInt vs fun wwise_resource_gathering_sound_id vs =>
  HReader.popInt vs fun wwise_resource_deposit_sound_id vs =>
  HReader.popDone vs do
  alloc (.record (lit "Task") [
    (lit "task_type", .int task_type),
    (lit "id", .int id_),
    (lit "is_default", .int is_default),
    (lit "action_type", .int action_type),
    (lit "class_id", .int class_id),
    (lit "unit_id", .int unit_id),
    (lit "terrain_id", .int terrain_id),
    (lit "resource_in", .int resource_in),
    (lit "resource_multiplier", .int resource_multiplier),
    (lit "resource_out", .int resource_out),
    (lit "unused_resource", .int unused_resource),
    (lit "work_value_1", .float work_value_1),
    (lit "work_value_2", .float work_value_2),
    (lit "work_range", .float work_range),
    (lit "auto_search_targets", .int auto_search_targets),
    (lit "search_wait_time", .float search_wait_time),
    (lit "enable_targeting", .int enable_targeting),
    (lit "combat_level_flag", .int combat_level_flag),
    (lit "gather_type", .int gather_type),
    (lit "work_flag_2", .int work_flag_2),
    (lit "target_diplomacy", .int target_diplomacy),
    (lit "carry_check", .int carry_check),
    (lit "pick_for_construction", .int pick_for_construction),
    (lit "moving_graphic_id", .int moving_graphic_id),
    (lit "proceeding_graphic_id", .int proceeding_graphic_id),
    (lit "working_graphic_id", .int working_graphic_id),
    (lit "carrying_graphic_id", .int carrying_graphic_id),
    (lit "resource_gathering_sound_id", .int resource_gathering_sound_id),
    (lit "resource_deposit_sound_id", .int resource_deposit_sound_id),
    (lit "wwise_resource_gathering_sound_id", .int wwise_resource_gathering_sound_id),
    (lit "wwise_resource_deposit_sound_id", .int wwise_resource_deposit_sound_id),
    (lit "enabled", .int (-1))])

/-- `Task.from_bytes_88` — `/repo/src/genieutils/task.py:128-198`. -/
def Task.build88 : HReader HVal := do
  let vs ← lift (unpackFrom TASK_FORMAT_88 TASK_FORMAT_LENGTH_88)
  HReader.popInt vs fun task_type vs =>
  HReader.popInt vs fun id_ vs =>
  HReader.popInt vs fun is_default vs =>
  HReader.popInt vs fun action_type vs =>
  HReader.popInt vs fun class_id vs =>
  HReader.popInt vs fun unit_id vs =>
  HReader.popInt vs fun terrain_id vs =>
  HReader.popInt vs fun resource_in vs =>
  HReader.popInt vs fun resource_multiplier vs =>
  HReader.popInt vs fun resource_out vs =>
  HReader.popInt vs fun unused_resource vs =>
  HReader.popFloat vs fun work_value_1 vs =>
  HReader.popFloat vs fun work_value_2 vs =>
  HReader.popFloat vs fun work_range vs =>
  HReader.popInt vs fun auto_search_targets vs =>
  HReader.popFloat vs fun search_wait_time vs =>
  HReader.popInt vs fun enable_targeting vs =>
  HReader.popInt vs fun combat_level_flag vs =>
  HReader.popInt vs fun gather_type vs =>
  HReader.popInt vs fun work_flag_2 vs =>
  HReader.popInt vs fun target_diplomacy vs =>
  HReader.popInt vs fun carry_check vs =>
  HReader.popInt vs fun pick_for_construction vs =>
  HReader.popInt vs fun moving_graphic_id vs =>
  HReader.popInt vs fun proceeding_graphic_id vs =>
  HReader.popInt vs fun working_graphic_id vs =>
  HReader.popInt vs fun carrying_graphic_id vs =>
  HReader.popInt vs fun resource_gathering_sound_id vs =>
  HReader.popInt vs fun resource_deposit_sound_id vs =>
  HReader.popInt vs fun wwise_resource_gathering_sound_id vs =>
  HReader.popInt vs fun wwise_resource_deposit_sound_id vs =>
  HReader.popInt vs fun enabled vs =>
  HReader.popDone vs do
  alloc (.record (lit "Task") [
    (lit "task_type", .int task_type),
    (lit "id", .int id_),
    (lit "is_default", .int is_default),
    (lit "action_type", .int action_type),
    (lit "class_id", .int class_id),
    (lit "unit_id", .int unit_id),
    (lit "terrain_id", .int terrain_id),
    (lit "resource_in", .int resource_in),
    (lit "resource_multiplier", .int resource_multiplier),
    (lit "resource_out", .int resource_out),
    (lit "unused_resource", .int unused_resource),
    (lit "work_value_1", .float work_value_1),
    (lit "work_value_2", .float work_value_2),
    (lit "work_range", .float work_range),
    (lit "auto_search_targets", .int auto_search_targets),
    (lit "search_wait_time", .float search_wait_time),
    (lit "enable_targeting", .int enable_targeting),
    (lit "combat_level_flag", .int combat_level_flag),
    (lit "gather_type", .int gather_type),
    (lit "work_flag_2", .int work_flag_2),
    (lit "target_diplomacy", .int target_diplomacy),
    (lit "carry_check", .int carry_check),
    (lit "pick_for_construction", .int pick_for_construction),
    (lit "moving_graphic_id", .int moving_graphic_id),
    (lit "proceeding_graphic_id", .int proceeding_graphic_id),
    (lit "working_graphic_id", .int working_graphic_id),
    (lit "carrying_graphic_id", .int carrying_graphic_id),
    (lit "resource_gathering_sound_id", .int resource_gathering_sound_id),
    (lit "resource_deposit_sound_id", .int resource_deposit_sound_id),
    (lit "wwise_resource_gathering_sound_id", .int wwise_resource_gathering_sound_id),
    (lit "wwise_resource_deposit_sound_id", .int wwise_resource_deposit_sound_id),
    (lit "enabled", .int enabled)])

/-- `Task.from_bytes` — `/repo/src/genieutils/task.py:50-53`. -/
def Task.build : HReader HVal := do
  let version ← lift getVersion
  if version.ge .VER_88 then Task.build88
  else Task.build84

/-- `ResourceStorage.from_bytes` — `/repo/src/genieutils/unit.py:19-26`. -/
def ResourceStorage.build : HReader HVal := do
  let vs ← lift (unpackFrom RESOURCE_STORAGE_FORMAT RESOURCE_STORAGE_FORMAT_LENGTH)
  HReader.popInt vs fun type_ vs =>
  HReader.popFloat vs fun amount vs =>
  HReader.popInt vs fun flag vs =>
  HReader.popDone vs do
  alloc (.record (lit "ResourceStorage") [
    (lit "type", .int type_),
    (lit "amount", .float amount),
    (lit "flag", .int flag)])

/-- `DamageGraphic.from_bytes` — `/repo/src/genieutils/unit.py:43-51`. -/
def DamageGraphic.build : HReader HVal := do
  let vs ← lift (unpackFrom DAMAGE_GRAPHIC_FORMAT DAMAGE_GRAPHIC_FORMAT_LENGTH)
  HReader.popInt vs fun graphic_id vs =>
  HReader.popInt vs fun damage_percent vs =>
  HReader.popInt vs fun apply_mode vs =>
  HReader.popDone vs do
  alloc (.record (lit "DamageGraphic") [
    (lit "graphic_id", .int graphic_id),
    (lit "damage_percent", .int damage_percent),
    (lit "apply_mode", .int apply_mode)])

/-- `DeadFish.from_bytes` — `/repo/src/genieutils/unit.py:79-110`. -/
def DeadFish.build : HReader HVal := do
  let vs ← lift (unpackFrom DEAD_FISH_FORMAT DEAD_FISH_FORMAT_LENGTH)
  HReader.popInt vs fun walking_graphic vs =>
  HReader.popInt vs fun running_graphic vs =>
  HReader.popFloat vs fun rotation_speed vs =>
  HReader.popInt vs fun old_size_class vs =>
  HReader.popInt vs fun tracking_unit vs =>
  HReader.popInt vs fun tracking_unit_mode vs =>
  HReader.popFloat vs fun tracking_unit_density vs =>
  HReader.popInt vs fun old_move_algorithm vs =>
  HReader.popFloat vs fun turn_radius vs =>
  HReader.popFloat vs fun turn_radius_speed vs =>
  HReader.popFloat vs fun max_yaw_per_second_moving vs =>
  HReader.popFloat vs fun stationary_yaw_revolution_time vs =>
  HReader.popFloat vs fun max_yaw_per_second_stationary vs =>
  HReader.popFloat vs fun min_collision_size_multiplier vs =>
  HReader.popDone vs do
  alloc (.record (lit "DeadFish") [
    (lit "walking_graphic", .int walking_graphic),
    (lit "running_graphic", .int running_graphic),
    (lit "rotation_speed", .float rotation_speed),
    (lit "old_size_class", .int old_size_class),
    (lit "tracking_unit", .int tracking_unit),
    (lit "tracking_unit_mode", .int tracking_unit_mode),
    (lit "tracking_unit_density", .float tracking_unit_density),
    (lit "old_move_algorithm", .int old_move_algorithm),
    (lit "turn_radius", .float turn_radius),
    (lit "turn_radius_speed", .float turn_radius_speed),
    (lit "max_yaw_per_second_moving", .float max_yaw_per_second_moving),
    (lit "stationary_yaw_revolution_time", .float stationary_yaw_revolution_time),
    (lit "max_yaw_per_second_stationary", .float max_yaw_per_second_stationary),
    (lit "min_collision_size_multiplier", .float min_collision_size_multiplier)])

/-- `Bird.from_bytes` — `/repo/src/genieutils/unit.py:146-174`. -/
def Bird.build : HReader HVal := do
  let default_task_id ← lift (readInt16)
  let search_radius ← lift (readFloat)
  let work_rate ← lift (readFloat)
  let drop_sites_size : Int := 3
  let version ← lift getVersion
  let drop_sites_size ← lift (readOr (version.gt .VER_77) (readInt16) drop_sites_size)
  let drop_sites ← HReader.readInt16Array drop_sites_size
  let task_swap_group ← lift (readInt8)
  let attack_sound ← lift (readInt16)
  let move_sound ← lift (readInt16)
  let wwise_attack_sound_id ← lift (readInt32)
  let wwise_move_sound_id ← lift (readInt32)
  let run_pattern ← lift (readInt8)
  let task_size ← lift (readInt16)
  let tasks ← HReader.readClassArray Task.build task_size
  alloc (.record (lit "Bird") [
    (lit "default_task_id", .int default_task_id),
    (lit "search_radius", .float search_radius),
    (lit "work_rate", .float work_rate),
    (lit "drop_sites", drop_sites),
    (lit "task_swap_group", .int task_swap_group),
    (lit "attack_sound", .int attack_sound),
    (lit "move_sound", .int move_sound),
    (lit "wwise_attack_sound_id", .int wwise_attack_sound_id),
    (lit "wwise_move_sound_id", .int wwise_move_sound_id),
    (lit "run_pattern", .int run_pattern),
    (lit "tasks", tasks)])

/-- `AttackOrArmor.from_bytes` — `/repo/src/genieutils/unit.py:204-209`. -/
def AttackOrArmor.build : HReader HVal := do
  let vs ← lift (unpackFrom ATTACK_OR_ARMOR_FORMAT ATTACK_OR_ARMOR_FORMAT_LENGTH)
  HReader.popInt vs fun class_ vs =>
  HReader.popInt vs fun amount vs =>
  HReader.popDone vs do
  alloc (.record (lit "AttackOrArmor") [
    (lit "class_", .int class_),
    (lit "amount", .int amount)])

/-- `Type50.from_bytes` — `/repo/src/genieutils/unit.py:246-310`. -/
def Type50.build : HReader HVal := do
  let base_armor ← lift (readInt16)
  let attack_count ← lift (readInt16)
  let attacks ← HReader.readClassArray AttackOrArmor.build attack_count
  let armour_count ← lift (readInt16)
  let armours ← HReader.readClassArray AttackOrArmor.build armour_count
  let defense_terrain_bonus ← lift (readInt16)
  let bonus_damage_resistance ← lift (readFloat)
  let max_range ← lift (readFloat)
  let blast_width ← lift (readFloat)
  let reload_time ← lift (readFloat)
  let projectile_unit_id ← lift (readInt16)
  let accuracy_percent ← lift (readInt16)
  let break_off_combat ← lift (readInt8)
  let frame_delay ← lift (readInt16)
  let graphic_displacement ← HReader.readFloatArray3
  let blast_attack_level ← lift (readInt8)
  let min_range ← lift (readFloat)
  let accuracy_dispersion ← lift (readFloat)
  let attack_graphic ← lift (readInt16)
  let displayed_melee_armour ← lift (readInt16)
  let displayed_attack ← lift (readInt16)
  let displayed_range ← lift (readFloat)
  let displayed_reload_time ← lift (readFloat)
  let blast_damage ← lift (readFloat)
  let damage_reflection : PyFloat := PyFloat.zero
  let friendly_fire_damage : PyFloat := PyFloat.one
  let interrupt_frame : Int := (-1)
  let garrison_firepower : PyFloat := PyFloat.zero
  let attack_graphic_2 : Int := (-1)
  let version ← lift getVersion
  let damage_reflection ← lift (readOr (version.ge .VER_84) (readFloat) damage_reflection)
  let friendly_fire_damage ← lift (readOr (version.ge .VER_84) (readFloat) friendly_fire_damage)
  let interrupt_frame ← lift (readOr (version.ge .VER_84) (readInt16) interrupt_frame)
  let garrison_firepower ← lift (readOr (version.ge .VER_84) (readFloat) garrison_firepower)
  let attack_graphic_2 ← lift (readOr (version.ge .VER_84) (readInt16) attack_graphic_2)
  alloc (.record (lit "Type50") [
    (lit "base_armor", .int base_armor),
    (lit "attacks", attacks),
    (lit "armours", armours),
    (lit "defense_terrain_bonus", .int defense_terrain_bonus),
    (lit "bonus_damage_resistance", .float bonus_damage_resistance),
    (lit "max_range", .float max_range),
    (lit "blast_width", .float blast_width),
    (lit "reload_time", .float reload_time),
    (lit "projectile_unit_id", .int projectile_unit_id),
    (lit "accuracy_percent", .int accuracy_percent),
    (lit "break_off_combat", .int break_off_combat),
    (lit "frame_delay", .int frame_delay),
    (lit "graphic_displacement", graphic_displacement),
    (lit "blast_attack_level", .int blast_attack_level),
    (lit "min_range", .float min_range),
    (lit "accuracy_dispersion", .float accuracy_dispersion),
    (lit "attack_graphic", .int attack_graphic),
    (lit "displayed_melee_armour", .int displayed_melee_armour),
    (lit "displayed_attack", .int displayed_attack),
    (lit "displayed_range", .float displayed_range),
    (lit "displayed_reload_time", .float displayed_reload_time),
    (lit "blast_damage", .float blast_damage),
    (lit "damage_reflection", .float damage_reflection),
    (lit "friendly_fire_damage", .float friendly_fire_damage),
    (lit "interrupt_frame", .int interrupt_frame),
    (lit "garrison_firepower", .float garrison_firepower),
    (lit "attack_graphic_2", .int attack_graphic_2)])

/-- `Projectile.from_bytes` — `/repo/src/genieutils/unit.py:364-378`. -/
def Projectile.build : HReader HVal := do
  let vs ← lift (unpackFrom PROJECTILE_FORMAT PROJECTILE_FORMAT_LENGTH)
  HReader.popInt vs fun projectile_type vs =>
  HReader.popInt vs fun smart_mode vs =>
  HReader.popInt vs fun hit_mode vs =>
  HReader.popInt vs fun vanish_mode vs =>
  HReader.popInt vs fun area_effect_specials vs =>
  HReader.popFloat vs fun projectile_arc vs =>
  HReader.popDone vs do
  alloc (.record (lit "Projectile") [
    (lit "projectile_type", .int projectile_type),
    (lit "smart_mode", .int smart_mode),
    (lit "hit_mode", .int hit_mode),
    (lit "vanish_mode", .int vanish_mode),
    (lit "area_effect_specials", .int area_effect_specials),
    (lit "projectile_arc", .float projectile_arc)])

/-- `ResourceCost.from_bytes` — `/repo/src/genieutils/unit.py:402-408`. -/
def ResourceCost.build : HReader HVal := do
  let vs ← lift (unpackFrom RESOURCE_COST_FORMAT RESOURCE_COST_FORMAT_LENGTH)
  HReader.popInt vs fun type_ vs =>
  HReader.popInt vs fun amount vs =>
  HReader.popInt vs fun flag vs =>
  HReader.popDone vs do
  alloc (.record (lit "ResourceCost") [
    (lit "type", .int type_),
    (lit "amount", .int amount),
    (lit "flag", .int flag)])

/-- `TrainLocation.from_bytes_84` — `/repo/src/genieutils/unit.py:435-444`. -/
def TrainLocation.build84 : HReader HVal := do
  let vs ← lift (unpackFrom TRAIN_LOCATION_FORMAT TRAIN_LOCATOIN_FORMAT_LENGTH)
  HReader.popInt vs fun train_time vs =>
  HReader.popInt vs fun unit_id vs =>
  HReader.popInt vs fun button_id vs =>
  HReader.popDone vs do
  alloc (.record (lit "TrainLocation") [
    (lit "train_time", .int train_time),
    (lit "unit_id", .int unit_id),
    (lit "button_id", .int button_id),
    (lit "hot_key_id", .int 16000)])

/-- `TrainLocation.from_bytes_88` — `/repo/src/genieutils/unit.py:447-457`. -/
def TrainLocation.build88 : HReader HVal := do
  let vs ← lift (unpackFrom TRAIN_LOCATION_FORMAT_88 TRAIN_LOCATOIN_FORMAT_LENGTH_88)
  HReader.popInt vs fun train_time vs =>
  HReader.popInt vs fun unit_id vs =>
  HReader.popInt vs fun button_id vs =>
  HReader.popInt vs fun hot_key_id vs =>
  HReader.popDone vs do
  alloc (.record (lit "TrainLocation") [
    (lit "train_time", .int train_time),
    (lit "unit_id", .int unit_id),
    (lit "button_id", .int button_id),
    (lit "hot_key_id", .int hot_key_id)])

/-- `TrainLocation.from_bytes` — `/repo/src/genieutils/unit.py:429-432`. -/
def TrainLocation.build : HReader HVal := do
  let version ← lift getVersion
  if version.ge .VER_88 then TrainLocation.build88
  else TrainLocation.build84

/-- `Creatable.from_bytes_78` — `/repo/src/genieutils/unit.py:518-596`. -/
def Creatable.build78 : HReader HVal := do
  let resource_costs ← HReader.readClassArray3 ResourceCost.build
  let vs ← lift (unpackFrom CREATABLE_FORMAT CREATABLE_FORMAT_LENGTH)
  HReader.popInt vs fun train_time vs =>
  HReader.popInt vs fun train_location_id vs =>
  HReader.popInt vs fun button_id vs =>
  HReader.popFloat vs fun rear_attack_modifier vs =>
  HReader.popFloat vs fun flank_attack_modifier vs =>
  HReader.popInt vs fun creatable_type vs =>
  HReader.popInt vs fun hero_mode vs =>
  HReader.popInt vs fun garrison_graphic vs =>
  HReader.popInt vs fun spawning_graphic vs =>
  HReader.popInt vs fun upgrade_graphic vs =>
  HReader.popInt vs fun hero_glow_graphic vs =>
  HReader.popFloat vs fun max_charge vs =>
  HReader.popFloat vs fun recharge_rate vs =>
  HReader.popInt vs fun charge_event vs =>
  HReader.popInt vs fun charge_type vs =>
  HReader.popFloat vs fun min_conversion_time_mod vs =>
  HReader.popFloat vs fun max_conversion_time_mod vs =>
  HReader.popFloat vs fun conversion_chance_mod vs =>
  HReader.popFloat vs fun total_projectiles vs =>
  HReader.popInt vs fun max_total_projectiles vs =>
  HReader.popFloat vs fun projectile_spawning_area_1 vs =>
  HReader.popFloat vs fun projectile_spawning_area_2 vs =>
  HReader.popFloat vs fun projectile_spawning_area_3 vs =>
  HReader.popInt vs fun secondary_projectile_unit vs =>
  HReader.popInt vs fun special_graphic vs =>
  HReader.popInt vs fun special_ability vs =>
  HReader.popInt vs fun displayed_pierce_armour vs =>
  HReader.popDone vs do
  let item ← alloc (.record (lit "TrainLocation") [(lit "train_time", .int train_time), (lit "unit_id", .int train_location_id), (lit "button_id", .int button_id), (lit "hot_key_id", .int 16000)])
  let train_locations ← alloc (.list [item])
  let projectile_spawning_area ← alloc (.tuple [.float projectile_spawning_area_1, .float projectile_spawning_area_2, .float projectile_spawning_area_3])
  alloc (.record (lit "Creatable") [
    (lit "resource_costs", resource_costs),
    (lit "train_locations", train_locations),
    (lit "rear_attack_modifier", .float rear_attack_modifier),
    (lit "flank_attack_modifier", .float flank_attack_modifier),
    (lit "creatable_type", .int creatable_type),
    (lit "hero_mode", .int hero_mode),
    (lit "garrison_graphic", .int garrison_graphic),
    (lit "spawning_graphic", .int spawning_graphic),
    (lit "upgrade_graphic", .int upgrade_graphic),
    (lit "hero_glow_graphic", .int hero_glow_graphic),
    (lit "idle_attack_graphic", .int (-1)),
    (lit "max_charge", .float max_charge),
    (lit "recharge_rate", .float recharge_rate),
    (lit "charge_event", .int charge_event),
    (lit "charge_type", .int charge_type),
    (lit "charge_target", .int 0),
    (lit "charge_projectile_unit", .int (-1)),
    (lit "attack_priority", .int 0),
    (lit "invulnerability_level", .int 0),
    (lit "button_icon_id", .int (-1)),
    (lit "button_short_tooltip_id", .int (-1)),
    (lit "button_extended_tooltip_id", .int (-1)),
    (lit "button_hotkey_action", .int (-1)),
    (lit "min_conversion_time_mod", .float min_conversion_time_mod),
    (lit "max_conversion_time_mod", .float max_conversion_time_mod),
    (lit "conversion_chance_mod", .float conversion_chance_mod),
    (lit "total_projectiles", .float total_projectiles),
    (lit "max_total_projectiles", .int max_total_projectiles),
    (lit "projectile_spawning_area", projectile_spawning_area),
    (lit "secondary_projectile_unit", .int secondary_projectile_unit),
    (lit "special_graphic", .int special_graphic),
    (lit "special_ability", .int special_ability),
    (lit "displayed_pierce_armour", .int displayed_pierce_armour)])

/-- `Creatable.from_bytes_84` — `/repo/src/genieutils/unit.py:599-678`. -/
def Creatable.build84 : HReader HVal := do
  let resource_costs ← HReader.readClassArray3 ResourceCost.build
  let vs ← lift (unpackFrom CREATABLE_FORMAT_84 CREATABLE_FORMAT_LENGTH_84)
  HReader.popInt vs fun train_time vs =>
  HReader.popInt vs fun train_location_id vs =>
  HReader.popInt vs fun button_id vs =>
  HReader.popFloat vs fun rear_attack_modifier vs =>
  HReader.popFloat vs fun flank_attack_modifier vs =>
  HReader.popInt vs fun creatable_type vs =>
  HReader.popInt vs fun hero_mode vs =>
  HReader.popInt vs fun garrison_graphic vs =>
  HReader.popInt vs fun spawning_graphic vs =>
  HReader.popInt vs fun upgrade_graphic vs =>
  HReader.popInt vs fun hero_glow_graphic vs =>
  HReader.popInt vs fun idle_attack_graphic vs =>
  HReader.popFloat vs fun max_charge vs =>
  HReader.popFloat vs fun recharge_rate vs =>
  HReader.popInt vs fun charge_event vs =>
  HReader.popInt vs fun charge_type vs =>
  HReader.popInt vs fun charge_target vs =>
  HReader.popInt vs fun charge_projectile_unit vs =>
  HReader.popInt vs fun attack_priority vs =>
  HReader.popFloat vs fun invulnerability_level vs =>
  HReader.popInt vs fun button_icon_id vs =>
  HReader.popInt vs fun button_short_tooltip_id vs =>
  HReader.popInt vs fun button_extended_tooltip_id vs =>
  HReader.popInt vs fun button_hotkey_action vs =>
  HReader.popFloat vs fun min_conversion_time_mod vs =>
  HReader.popFloat vs fun max_conversion_time_mod vs =>
  HReader.popFloat vs fun conversion_chance_mod vs =>
  HReader.popFloat vs fun total_projectiles vs =>
  HReader.popInt vs fun max_total_projectiles vs =>
  HReader.popFloat vs fun projectile_spawning_area_1 vs =>
  HReader.popFloat vs fun projectile_spawning_area_2 vs =>
  HReader.popFloat vs fun projectile_spawning_area_3 vs =>
  HReader.popInt vs fun secondary_projectile_unit vs =>
  HReader.popInt vs fun special_graphic vs =>
  HReader.popInt vs fun special_ability vs =>
  HReader.popInt vs fun displayed_pierce_armour vs =>
  HReader.popDone vs do
  let item ← alloc (.record (lit "TrainLocation") [(lit "train_time", .int train_time), (lit "unit_id", .int train_location_id), (lit "button_id", .int button_id), (lit "hot_key_id", .int 16000)])
  let train_locations ← alloc (.list [item])
  let projectile_spawning_area ← alloc (.tuple [.float projectile_spawning_area_1, .float projectile_spawning_area_2, .float projectile_spawning_area_3])
  alloc (.record (lit "Creatable") [
    (lit "resource_costs", resource_costs),
    (lit "train_locations", train_locations),
    (lit "rear_attack_modifier", .float rear_attack_modifier),
    (lit "flank_attack_modifier", .float flank_attack_modifier),
    (lit "creatable_type", .int creatable_type),
    (lit "hero_mode", .int hero_mode),
    (lit "garrison_graphic", .int garrison_graphic),
    (lit "spawning_graphic", .int spawning_graphic),
    (lit "upgrade_graphic", .int upgrade_graphic),
    (lit "hero_glow_graphic", .int hero_glow_graphic),
    (lit "idle_attack_graphic", .int idle_attack_graphic),
    (lit "max_charge", .float max_charge),
    (lit "recharge_rate", .float recharge_rate),
    (lit "charge_event", .int charge_event),
    (lit "charge_type", .int charge_type),
    (lit "charge_target", .int charge_target),
    (lit "charge_projectile_unit", .int charge_projectile_unit),
    (lit "attack_priority", .int attack_priority),
    (lit "invulnerability_level", .float invulnerability_level),
    (lit "button_icon_id", .int button_icon_id),
    (lit "button_short_tooltip_id", .int button_short_tooltip_id),
    (lit "button_extended_tooltip_id", .int button_extended_tooltip_id),
    (lit "button_hotkey_action", .int button_hotkey_action),
    (lit "min_conversion_time_mod", .float min_conversion_time_mod),
    (lit "max_conversion_time_mod", .float max_conversion_time_mod),
    (lit "conversion_chance_mod", .float conversion_chance_mod),
    (lit "total_projectiles", .float total_projectiles),
    (lit "max_total_projectiles", .int max_total_projectiles),
    (lit "projectile_spawning_area", projectile_spawning_area),
    (lit "secondary_projectile_unit", .int secondary_projectile_unit),
    (lit "special_graphic", .int special_graphic),
    (lit "special_ability", .int special_ability),
    (lit "displayed_pierce_armour", .int displayed_pierce_armour)])

/-- `Creatable.from_bytes_88` — `/repo/src/genieutils/unit.py:681-756`. -/
def Creatable.build88 : HReader HVal := do
  let resource_costs ← HReader.readClassArray3 ResourceCost.build
  let train_location_count ← lift (readInt16)
  let train_locations ← HReader.readClassArray TrainLocation.build train_location_count
  let vs ← lift (unpackFrom CREATABLE_FORMAT_88 CREATABLE_FORMAT_LENGTH_88)
  HReader.popFloat vs fun rear_attack_modifier vs =>
  HReader.popFloat vs fun flank_attack_modifier vs =>
  HReader.popInt vs fun creatable_type vs =>
  HReader.popInt vs fun hero_mode vs =>
  HReader.popInt vs fun garrison_graphic vs =>
  HReader.popInt vs fun spawning_graphic vs =>
  HReader.popInt vs fun upgrade_graphic vs =>
  HReader.popInt vs fun hero_glow_graphic vs =>
  HReader.popInt vs fun idle_attack_graphic vs =>
  HReader.popFloat vs fun max_charge vs =>
  HReader.popFloat vs fun recharge_rate vs =>
  HReader.popInt vs fun charge_event vs =>
  HReader.popInt vs fun charge_type vs =>
  HReader.popInt vs fun charge_target vs =>
  HReader.popInt vs fun charge_projectile_unit vs =>
  HReader.popInt vs fun attack_priority vs =>
  HReader.popFloat vs fun invulnerability_level vs =>
  HReader.popInt vs fun button_icon_id vs =>
  HReader.popInt vs fun button_short_tooltip_id vs =>
  HReader.popInt vs fun button_extended_tooltip_id vs =>
  HReader.popInt vs fun button_hotkey_action vs =>
  HReader.popFloat vs fun min_conversion_time_mod vs =>
  HReader.popFloat vs fun max_conversion_time_mod vs =>
  HReader.popFloat vs fun conversion_chance_mod vs =>
  HReader.popFloat vs fun total_projectiles vs =>
  HReader.popInt vs fun max_total_projectiles vs =>
  HReader.popFloat vs fun projectile_spawning_area_1 vs =>
  HReader.popFloat vs fun projectile_spawning_area_2 vs =>
  HReader.popFloat vs fun projectile_spawning_area_3 vs =>
  HReader.popInt vs fun secondary_projectile_unit vs =>
  HReader.popInt vs fun special_graphic vs =>
  HReader.popInt vs fun special_ability vs =>
  HReader.popInt vs fun displayed_pierce_armour vs =>
  HReader.popDone vs do
  let projectile_spawning_area ← alloc (.tuple [.float projectile_spawning_area_1, .float projectile_spawning_area_2, .float projectile_spawning_area_3])
  alloc (.record (lit "Creatable") [
    (lit "resource_costs", resource_costs),
    (lit "train_locations", train_locations),
    (lit "rear_attack_modifier", .float rear_attack_modifier),
    (lit "flank_attack_modifier", .float flank_attack_modifier),
    (lit "creatable_type", .int creatable_type),
    (lit "hero_mode", .int hero_mode),
    (lit "garrison_graphic", .int garrison_graphic),
    (lit "spawning_graphic", .int spawning_graphic),
    (lit "upgrade_graphic", .int upgrade_graphic),
    (lit "hero_glow_graphic", .int hero_glow_graphic),
    (lit "idle_attack_graphic", .int idle_attack_graphic),
    (lit "max_charge", .float max_charge),
    (lit "recharge_rate", .float recharge_rate),
    (lit "charge_event", .int charge_event),
    (lit "charge_type", .int charge_type),
    (lit "charge_target", .int charge_target),
    (lit "charge_projectile_unit", .int charge_projectile_unit),
    (lit "attack_priority", .int attack_priority),
    (lit "invulnerability_level", .float invulnerability_level),
    (lit "button_icon_id", .int button_icon_id),
    (lit "button_short_tooltip_id", .int button_short_tooltip_id),
    (lit "button_extended_tooltip_id", .int button_extended_tooltip_id),
    (lit "button_hotkey_action", .int button_hotkey_action),
    (lit "min_conversion_time_mod", .float min_conversion_time_mod),
    (lit "max_conversion_time_mod", .float max_conversion_time_mod),
    (lit "conversion_chance_mod", .float conversion_chance_mod),
    (lit "total_projectiles", .float total_projectiles),
    (lit "max_total_projectiles", .int max_total_projectiles),
    (lit "projectile_spawning_area", projectile_spawning_area),
    (lit "secondary_projectile_unit", .int secondary_projectile_unit),
    (lit "special_graphic", .int special_graphic),
    (lit "special_ability", .int special_ability),
    (lit "displayed_pierce_armour", .int displayed_pierce_armour)])

/-- `Creatable.from_bytes` — `/repo/src/genieutils/unit.py:510-515`. -/
def Creatable.build : HReader HVal := do
  let version ← lift getVersion
  if version.ge .VER_88 then Creatable.build88
  else if version.ge .VER_84 then Creatable.build84
  else Creatable.build78

/-- `BuildingAnnex.from_bytes` — `/repo/src/genieutils/unit.py:884-891`. -/
def BuildingAnnex.build : HReader HVal := do
  let vs ← lift (unpackFrom BUILDING_ANNEX_FORMAT BUILDING_ANNEX_FORMAT_LENGTH)
  HReader.popInt vs fun unit_id vs =>
  HReader.popFloat vs fun misplacement_x vs =>
  HReader.popFloat vs fun misplacement_y vs =>
  HReader.popDone vs do
  alloc (.record (lit "BuildingAnnex") [
    (lit "unit_id", .int unit_id),
    (lit "misplacement_x", .float misplacement_x),
    (lit "misplacement_y", .float misplacement_y)])

/-- `Building.from_bytes` — `/repo/src/genieutils/unit.py:938-1008`. -/
def Building.build : HReader HVal := do
  let vs ← lift (unpackFrom BUILDING_ANNEX_FORMAT_1 BUILDING_ANNEX_FORMAT_1_LENGTH)
  HReader.popInt vs fun construction_graphic_id vs =>
  HReader.popInt vs fun snow_graphic_id vs =>
  HReader.popInt vs fun destruction_graphic_id vs =>
  HReader.popInt vs fun destruction_rubble_graphic_id vs =>
  HReader.popInt vs fun researching_graphic vs =>
  HReader.popInt vs fun research_completed_graphic vs =>
  HReader.popInt vs fun adjacent_mode vs =>
  HReader.popInt vs fun graphics_angle vs =>
  HReader.popInt vs fun disappears_when_built vs =>
  HReader.popInt vs fun stack_unit_id vs =>
  HReader.popInt vs fun foundation_terrain_id vs =>
  HReader.popInt vs fun old_overlap_id vs =>
  HReader.popInt vs fun tech_id vs =>
  HReader.popInt vs fun can_burn vs =>
  HReader.popDone vs do
  let annexes ← HReader.readClassArray4 BuildingAnnex.build
  let vs ← lift (unpackFrom BUILDING_ANNEX_FORMAT_2 BUILDING_ANNEX_FORMAT_2_LENGTH)
  HReader.popInt vs fun head_unit vs =>
  HReader.popInt vs fun transform_unit vs =>
  HReader.popInt vs fun transform_sound vs =>
  HReader.popInt vs fun construction_sound vs =>
  HReader.popInt vs fun wwise_transform_sound_id vs =>
  HReader.popInt vs fun wwise_construction_sound_id vs =>
  HReader.popInt vs fun garrison_type vs =>
  HReader.popFloat vs fun garrison_heal_rate vs =>
  HReader.popFloat vs fun garrison_repair_rate vs =>
  HReader.popInt vs fun pile_unit vs =>
  HReader.popInt vs fun looting_table_1 vs =>
  HReader.popInt vs fun looting_table_2 vs =>
  HReader.popInt vs fun looting_table_3 vs =>
  HReader.popInt vs fun looting_table_4 vs =>
  HReader.popInt vs fun looting_table_5 vs =>
  HReader.popInt vs fun looting_table_6 vs =>
  HReader.popDone vs do
  let looting_table ← alloc (.tuple [.int looting_table_1, .int looting_table_2, .int looting_table_3, .int looting_table_4, .int looting_table_5, .int looting_table_6])
  alloc (.record (lit "Building") [
    (lit "construction_graphic_id", .int construction_graphic_id),
    (lit "snow_graphic_id", .int snow_graphic_id),
    (lit "destruction_graphic_id", .int destruction_graphic_id),
    (lit "destruction_rubble_graphic_id", .int destruction_rubble_graphic_id),
    (lit "researching_graphic", .int researching_graphic),
    (lit "research_completed_graphic", .int research_completed_graphic),
    (lit "adjacent_mode", .int adjacent_mode),
    (lit "graphics_angle", .int graphics_angle),
    (lit "disappears_when_built", .int disappears_when_built),
    (lit "stack_unit_id", .int stack_unit_id),
    (lit "foundation_terrain_id", .int foundation_terrain_id),
    (lit "old_overlap_id", .int old_overlap_id),
    (lit "tech_id", .int tech_id),
    (lit "can_burn", .int can_burn),
    (lit "annexes", annexes),
    (lit "head_unit", .int head_unit),
    (lit "transform_unit", .int transform_unit),
    (lit "transform_sound", .int transform_sound),
    (lit "construction_sound", .int construction_sound),
    (lit "wwise_transform_sound_id", .int wwise_transform_sound_id),
    (lit "wwise_construction_sound_id", .int wwise_construction_sound_id),
    (lit "garrison_type", .int garrison_type),
    (lit "garrison_heal_rate", .float garrison_heal_rate),
    (lit "garrison_repair_rate", .float garrison_repair_rate),
    (lit "pile_unit", .int pile_unit),
    (lit "looting_table", looting_table)])

/-- The hot key post-processing of `Unit.from_bytes_84` — `/repo/src/genieutils/unit.py:1243-1246`, statement by statement. -/
def Creatable.storeHotKey (creatable : HVal) (hot_key : Int) : HReader PUnit := do
  let c ← HReader.truthy creatable
  if c = true then do
    let train_locations ← getAttr creatable (lit "train_locations")
    let t ← HReader.truthy train_locations
    if (!t) = true then do
      let item ← alloc (.record (lit "TrainLocation") [(lit "train_time", .int 0), (lit "unit_id", .int (-1)), (lit "button_id", .int 0), (lit "hot_key_id", .int 16000)])
      let items ← alloc (.list [item])
      setAttr creatable (lit "train_locations") items
    else pure ()
    let train_locations ← getAttr creatable (lit "train_locations")
    let train_location ← HReader.item train_locations 0
    setAttr train_location (lit "hot_key_id") (.int hot_key)
  else pure ()

/-- The hot key post-processing of `Unit.from_bytes_88` — `/repo/src/genieutils/unit.py:1434-1435`, statement by statement: `hot_key =
creatable.train_locations[0].hot_key_id` if `creatable and creatable.train_locations`. -/
def Creatable.readHotKey (creatable : HVal) (hot_key : Int) : HReader HVal := do
  let c ← HReader.truthy creatable
  let t ← (if c = true then do
      let train_locations ← getAttr creatable (lit "train_locations")
      HReader.truthy train_locations
    else pure c)
  if t = true then do
    let train_locations ← getAttr creatable (lit "train_locations")
    let train_location ← HReader.item train_locations 0
    getAttr train_location (lit "hot_key_id")
  else pure (.int hot_key)

/-- `Unit.from_bytes_84` — `/repo/src/genieutils/unit.py:1142-1331`. -/
def Unit.build84 : HReader HVal := do
  let vs ← lift (unpackFrom UNIT_FORMAT UNIT_FORMAT_LENGTH)
  HReader.popInt vs fun type_ vs =>
  HReader.popInt vs fun id_ vs =>
  HReader.popInt vs fun language_dll_name vs =>
  HReader.popInt vs fun language_dll_creation vs =>
  HReader.popInt vs fun class_ vs =>
  HReader.popInt vs fun standing_graphic_1 vs =>
  HReader.popInt vs fun standing_graphic_2 vs =>
  HReader.popInt vs fun dying_graphic vs =>
  HReader.popInt vs fun undead_graphic vs =>
  HReader.popInt vs fun undead_mode vs =>
  HReader.popInt vs fun hit_points vs =>
  HReader.popFloat vs fun line_of_sight vs =>
  HReader.popInt vs fun garrison_capacity vs =>
  HReader.popFloat vs fun collision_size_x vs =>
  HReader.popFloat vs fun collision_size_y vs =>
  HReader.popFloat vs fun collision_size_z vs =>
  HReader.popInt vs fun train_sound vs =>
  HReader.popInt vs fun damage_sound vs =>
  HReader.popInt vs fun dead_unit_id vs =>
  HReader.popInt vs fun blood_unit_id vs =>
  HReader.popInt vs fun sort_number vs =>
  HReader.popInt vs fun can_be_built_on vs =>
  HReader.popInt vs fun icon_id vs =>
  HReader.popInt vs fun hide_in_editor vs =>
  HReader.popInt vs fun old_portrait_pict vs =>
  HReader.popInt vs fun enabled vs =>
  HReader.popInt vs fun disabled vs =>
  HReader.popInt vs fun placement_side_terrain_1 vs =>
  HReader.popInt vs fun placement_side_terrain_2 vs =>
  HReader.popInt vs fun placement_terrain_1 vs =>
  HReader.popInt vs fun placement_terrain_2 vs =>
  HReader.popFloat vs fun clearance_size_1 vs =>
  HReader.popFloat vs fun clearance_size_2 vs =>
  HReader.popInt vs fun hill_mode vs =>
  HReader.popInt vs fun fog_visibility vs =>
  HReader.popInt vs fun terrain_restriction vs =>
  HReader.popInt vs fun fly_mode vs =>
  HReader.popInt vs fun resource_capacity vs =>
  HReader.popFloat vs fun resource_decay vs =>
  HReader.popInt vs fun blast_defense_level vs =>
  HReader.popInt vs fun combat_level vs =>
  HReader.popInt vs fun interaction_mode vs =>
  HReader.popInt vs fun minimap_mode vs =>
  HReader.popInt vs fun interface_kind vs =>
  HReader.popFloat vs fun multiple_attribute_mode vs =>
  HReader.popInt vs fun minimap_color vs =>
  HReader.popInt vs fun language_dll_help vs =>
  HReader.popInt vs fun language_dll_hotkey_text vs =>
  HReader.popInt vs fun hot_key vs =>
  HReader.popInt vs fun recyclable vs =>
  HReader.popInt vs fun enable_auto_gather vs =>
  HReader.popInt vs fun create_doppelganger_on_death vs =>
  HReader.popInt vs fun resource_gather_group vs =>
  HReader.popInt vs fun occlusion_mode vs =>
  HReader.popInt vs fun obstruction_type vs =>
  HReader.popInt vs fun obstruction_class vs =>
  HReader.popInt vs fun trait vs =>
  HReader.popInt vs fun civilization vs =>
  HReader.popInt vs fun nothing vs =>
  HReader.popInt vs fun selection_effect vs =>
  HReader.popInt vs fun editor_selection_colour vs =>
  HReader.popFloat vs fun outline_size_x vs =>
  HReader.popFloat vs fun outline_size_y vs =>
  HReader.popFloat vs fun outline_size_z vs =>
  HReader.popInt vs fun scenario_triggers_1 vs =>
  HReader.popInt vs fun scenario_triggers_2 vs =>
  HReader.popDone vs do
  let resource_storages ← HReader.readClassArray3 ResourceStorage.build
  let damage_graphic_size ← lift (readInt8)
  let damage_graphics ← HReader.readClassArray DamageGraphic.build damage_graphic_size
  let selection_sound ← lift (readInt16)
  let dying_sound ← lift (readInt16)
  let wwise_train_sound_id ← lift (readInt32)
  let wwise_damage_sound_id ← lift (readInt32)
  let wwise_selection_sound_id ← lift (readInt32)
  let wwise_dying_sound_id ← lift (readInt32)
  let old_attack_reaction ← lift (readInt8)
  let convert_terrain ← lift (readInt8)
  let name ← lift (readDebugString)
  let copy_id ← lift (readInt16)
  let base_id ← lift (readInt16)
  let speed ← HReader.readIf (type_ ≠ UnitType.AoeTrees ∧ type_ ≥ UnitType.Flag) (float readFloat)
  let dead_fish ← HReader.readIf (type_ ≠ UnitType.AoeTrees ∧ type_ ≥ UnitType.Flag ∧ type_ ≥ UnitType.DeadFish) (HReader.readClass DeadFish.build)
  let bird ← HReader.readIf (type_ ≠ UnitType.AoeTrees ∧ type_ ≥ UnitType.Flag ∧ type_ ≥ UnitType.Bird) (HReader.readClass Bird.build)
  let type_50 ← HReader.readIf (type_ ≠ UnitType.AoeTrees ∧ type_ ≥ UnitType.Flag ∧ type_ ≥ UnitType.Combatant) (HReader.readClass Type50.build)
  let projectile ← HReader.readIf (type_ ≠ UnitType.AoeTrees ∧ type_ ≥ UnitType.Flag ∧ type_ = UnitType.Projectile) (HReader.readClass Projectile.build)
  let creatable ← HReader.readIf (type_ ≠ UnitType.AoeTrees ∧ type_ ≥ UnitType.Flag ∧ type_ ≥ UnitType.Creatable) (HReader.readClass Creatable.build)
  let building ← HReader.readIf (type_ ≠ UnitType.AoeTrees ∧ type_ ≥ UnitType.Flag ∧ type_ = UnitType.Building) (HReader.readClass Building.build)
  Creatable.storeHotKey creatable hot_key
  let standing_graphic ← alloc (.tuple [.int standing_graphic_1, .int standing_graphic_2])
  let placement_side_terrain ← alloc (.tuple [.int placement_side_terrain_1, .int placement_side_terrain_2])
  let placement_terrain ← alloc (.tuple [.int placement_terrain_1, .int placement_terrain_2])
  let clearance_size ← alloc (.tuple [.float clearance_size_1, .float clearance_size_2])
  alloc (.record (lit "Unit") [
    (lit "type", .int type_),
    (lit "id", .int id_),
    (lit "language_dll_name", .int language_dll_name),
    (lit "language_dll_creation", .int language_dll_creation),
    (lit "class_", .int class_),
    (lit "standing_graphic", standing_graphic),
    (lit "dying_graphic", .int dying_graphic),
    (lit "undead_graphic", .int undead_graphic),
    (lit "undead_mode", .int undead_mode),
    (lit "hit_points", .int hit_points),
    (lit "line_of_sight", .float line_of_sight),
    (lit "garrison_capacity", .int garrison_capacity),
    (lit "collision_size_x", .float collision_size_x),
    (lit "collision_size_y", .float collision_size_y),
    (lit "collision_size_z", .float collision_size_z),
    (lit "train_sound", .int train_sound),
    (lit "damage_sound", .int damage_sound),
    (lit "dead_unit_id", .int dead_unit_id),
    (lit "blood_unit_id", .int blood_unit_id),
    (lit "sort_number", .int sort_number),
    (lit "can_be_built_on", .int can_be_built_on),
    (lit "icon_id", .int icon_id),
    (lit "hide_in_editor", .int hide_in_editor),
    (lit "old_portrait_pict", .int old_portrait_pict),
    (lit "enabled", .int enabled),
    (lit "disabled", .int disabled),
    (lit "placement_side_terrain", placement_side_terrain),
    (lit "placement_terrain", placement_terrain),
    (lit "clearance_size", clearance_size),
    (lit "hill_mode", .int hill_mode),
    (lit "fog_visibility", .int fog_visibility),
    (lit "terrain_restriction", .int terrain_restriction),
    (lit "fly_mode", .int fly_mode),
    (lit "resource_capacity", .int resource_capacity),
    (lit "resource_decay", .float resource_decay),
    (lit "blast_defense_level", .int blast_defense_level),
    (lit "combat_level", .int combat_level),
    (lit "interaction_mode", .int interaction_mode),
    (lit "minimap_mode", .int minimap_mode),
    (lit "interface_kind", .int interface_kind),
    (lit "multiple_attribute_mode", .float multiple_attribute_mode),
    (lit "minimap_color", .int minimap_color),
    (lit "language_dll_help", .int language_dll_help),
    (lit "language_dll_hotkey_text", .int language_dll_hotkey_text),
    (lit "hot_key", .int hot_key),
    (lit "recyclable", .int recyclable),
    (lit "enable_auto_gather", .int enable_auto_gather),
    (lit "create_doppelganger_on_death", .int create_doppelganger_on_death),
    (lit "resource_gather_group", .int resource_gather_group),
    (lit "occlusion_mode", .int occlusion_mode),
    (lit "obstruction_type", .int obstruction_type),
    (lit "obstruction_class", .int obstruction_class),
    (lit "trait", .int trait),
    (lit "civilization", .int civilization),
    (lit "nothing", .int nothing),
    (lit "selection_effect", .int selection_effect),
    (lit "editor_selection_colour", .int editor_selection_colour),
    (lit "outline_size_x", .float outline_size_x),
    (lit "outline_size_y", .float outline_size_y),
    (lit "outline_size_z", .float outline_size_z),
    (lit "scenario_triggers_1", .int scenario_triggers_1),
    (lit "scenario_triggers_2", .int scenario_triggers_2),
    (lit "resource_storages", resource_storages),
    (lit "damage_graphics", damage_graphics),
    (lit "selection_sound", .int selection_sound),
    (lit "dying_sound", .int dying_sound),
    (lit "wwise_train_sound_id", .int wwise_train_sound_id),
    (lit "wwise_damage_sound_id", .int wwise_damage_sound_id),
    (lit "wwise_selection_sound_id", .int wwise_selection_sound_id),
    (lit "wwise_dying_sound_id", .int wwise_dying_sound_id),
    (lit "old_attack_reaction", .int old_attack_reaction),
    (lit "convert_terrain", .int convert_terrain),
    (lit "name", .str name),
    (lit "copy_id", .int copy_id),
    (lit "base_id", .int base_id),
    (lit "speed", speed),
    (lit "dead_fish", dead_fish),
    (lit "bird", bird),
    (lit "type_50", type_50),
    (lit "projectile", projectile),
    (lit "creatable", creatable),
    (lit "building", building)])

/-- `Unit.from_bytes_88` — `/repo/src/genieutils/unit.py:1334-1520`. -/
def Unit.build88 : HReader HVal := do
  let vs ← lift (unpackFrom UNIT_FORMAT_88 UNIT_FORMAT_LENGTH_88)
  HReader.popInt vs fun type_ vs =>
  HReader.popInt vs fun id_ vs =>
  HReader.popInt vs fun language_dll_name vs =>
  HReader.popInt vs fun language_dll_creation vs =>
  HReader.popInt vs fun class_ vs =>
  HReader.popInt vs fun standing_graphic_1 vs =>
  HReader.popInt vs fun standing_graphic_2 vs =>
  HReader.popInt vs fun dying_graphic vs =>
  HReader.popInt vs fun undead_graphic vs =>
  HReader.popInt vs fun undead_mode vs =>
  HReader.popInt vs fun hit_points vs =>
  HReader.popFloat vs fun line_of_sight vs =>
  HReader.popInt vs fun garrison_capacity vs =>
  HReader.popFloat vs fun collision_size_x vs =>
  HReader.popFloat vs fun collision_size_y vs =>
  HReader.popFloat vs fun collision_size_z vs =>
  HReader.popInt vs fun train_sound vs =>
  HReader.popInt vs fun damage_sound vs =>
  HReader.popInt vs fun dead_unit_id vs =>
  HReader.popInt vs fun blood_unit_id vs =>
  HReader.popInt vs fun sort_number vs =>
  HReader.popInt vs fun can_be_built_on vs =>
  HReader.popInt vs fun icon_id vs =>
  HReader.popInt vs fun hide_in_editor vs =>
  HReader.popInt vs fun old_portrait_pict vs =>
  HReader.popInt vs fun enabled vs =>
  HReader.popInt vs fun disabled vs =>
  HReader.popInt vs fun placement_side_terrain_1 vs =>
  HReader.popInt vs fun placement_side_terrain_2 vs =>
  HReader.popInt vs fun placement_terrain_1 vs =>
  HReader.popInt vs fun placement_terrain_2 vs =>
  HReader.popFloat vs fun clearance_size_1 vs =>
  HReader.popFloat vs fun clearance_size_2 vs =>
  HReader.popInt vs fun hill_mode vs =>
  HReader.popInt vs fun fog_visibility vs =>
  HReader.popInt vs fun terrain_restriction vs =>
  HReader.popInt vs fun fly_mode vs =>
  HReader.popInt vs fun resource_capacity vs =>
  HReader.popFloat vs fun resource_decay vs =>
  HReader.popInt vs fun blast_defense_level vs =>
  HReader.popInt vs fun combat_level vs =>
  HReader.popInt vs fun interaction_mode vs =>
  HReader.popInt vs fun minimap_mode vs =>
  HReader.popInt vs fun interface_kind vs =>
  HReader.popFloat vs fun multiple_attribute_mode vs =>
  HReader.popInt vs fun minimap_color vs =>
  HReader.popInt vs fun language_dll_help vs =>
  HReader.popInt vs fun language_dll_hotkey_text vs =>
  HReader.popInt vs fun recyclable vs =>
  HReader.popInt vs fun enable_auto_gather vs =>
  HReader.popInt vs fun create_doppelganger_on_death vs =>
  HReader.popInt vs fun resource_gather_group vs =>
  HReader.popInt vs fun occlusion_mode vs =>
  HReader.popInt vs fun obstruction_type vs =>
  HReader.popInt vs fun obstruction_class vs =>
  HReader.popInt vs fun trait vs =>
  HReader.popInt vs fun civilization vs =>
  HReader.popInt vs fun nothing vs =>
  HReader.popInt vs fun selection_effect vs =>
  HReader.popInt vs fun editor_selection_colour vs =>
  HReader.popFloat vs fun outline_size_x vs =>
  HReader.popFloat vs fun outline_size_y vs =>
  HReader.popFloat vs fun outline_size_z vs =>
  HReader.popInt vs fun scenario_triggers_1 vs =>
  HReader.popInt vs fun scenario_triggers_2 vs =>
  HReader.popDone vs do
  let hot_key : Int := 16000
  let resource_storages ← HReader.readClassArray3 ResourceStorage.build
  let damage_graphic_size ← lift (readInt8)
  let damage_graphics ← HReader.readClassArray DamageGraphic.build damage_graphic_size
  let selection_sound ← lift (readInt16)
  let dying_sound ← lift (readInt16)
  let wwise_train_sound_id ← lift (readInt32)
  let wwise_damage_sound_id ← lift (readInt32)
  let wwise_selection_sound_id ← lift (readInt32)
  let wwise_dying_sound_id ← lift (readInt32)
  let old_attack_reaction ← lift (readInt8)
  let convert_terrain ← lift (readInt8)
  let name ← lift (readDebugString)
  let copy_id ← lift (readInt16)
  let base_id ← lift (readInt16)
  let speed ← HReader.readIf (type_ ≠ UnitType.AoeTrees ∧ type_ ≥ UnitType.Flag) (float readFloat)
  let dead_fish ← HReader.readIf (type_ ≠ UnitType.AoeTrees ∧ type_ ≥ UnitType.Flag ∧ type_ ≥ UnitType.DeadFish) (HReader.readClass DeadFish.build)
  let bird ← HReader.readIf (type_ ≠ UnitType.AoeTrees ∧ type_ ≥ UnitType.Flag ∧ type_ ≥ UnitType.Bird) (HReader.readClass Bird.build)
  let type_50 ← HReader.readIf (type_ ≠ UnitType.AoeTrees ∧ type_ ≥ UnitType.Flag ∧ type_ ≥ UnitType.Combatant) (HReader.readClass Type50.build)
  let projectile ← HReader.readIf (type_ ≠ UnitType.AoeTrees ∧ type_ ≥ UnitType.Flag ∧ type_ = UnitType.Projectile) (HReader.readClass Projectile.build)
  let creatable ← HReader.readIf (type_ ≠ UnitType.AoeTrees ∧ type_ ≥ UnitType.Flag ∧ type_ ≥ UnitType.Creatable) (HReader.readClass Creatable.build)
  let building ← HReader.readIf (type_ ≠ UnitType.AoeTrees ∧ type_ ≥ UnitType.Flag ∧ type_ = UnitType.Building) (HReader.readClass Building.build)
  let hot_key ← Creatable.readHotKey creatable hot_key
  let standing_graphic ← alloc (.tuple [.int standing_graphic_1, .int standing_graphic_2])
  let placement_side_terrain ← alloc (.tuple [.int placement_side_terrain_1, .int placement_side_terrain_2])
  let placement_terrain ← alloc (.tuple [.int placement_terrain_1, .int placement_terrain_2])
  let clearance_size ← alloc (.tuple [.float clearance_size_1, .float clearance_size_2])
  alloc (.record (lit "Unit") [
    (lit "type", .int type_),
    (lit "id", .int id_),
    (lit "language_dll_name", .int language_dll_name),
    (lit "language_dll_creation", .int language_dll_creation),
    (lit "class_", .int class_),
    (lit "standing_graphic", standing_graphic),
    (lit "dying_graphic", .int dying_graphic),
    (lit "undead_graphic", .int undead_graphic),
    (lit "undead_mode", .int undead_mode),
    (lit "hit_points", .int hit_points),
    (lit "line_of_sight", .float line_of_sight),
    (lit "garrison_capacity", .int garrison_capacity),
    (lit "collision_size_x", .float collision_size_x),
    (lit "collision_size_y", .float collision_size_y),
    (lit "collision_size_z", .float collision_size_z),
    (lit "train_sound", .int train_sound),
    (lit "damage_sound", .int damage_sound),
    (lit "dead_unit_id", .int dead_unit_id),
    (lit "blood_unit_id", .int blood_unit_id),
    (lit "sort_number", .int sort_number),
    (lit "can_be_built_on", .int can_be_built_on),
    (lit "icon_id", .int icon_id),
    (lit "hide_in_editor", .int hide_in_editor),
    (lit "old_portrait_pict", .int old_portrait_pict),
    (lit "enabled", .int enabled),
    (lit "disabled", .int disabled),
    (lit "placement_side_terrain", placement_side_terrain),
    (lit "placement_terrain", placement_terrain),
    (lit "clearance_size", clearance_size),
    (lit "hill_mode", .int hill_mode),
    (lit "fog_visibility", .int fog_visibility),
    (lit "terrain_restriction", .int terrain_restriction),
    (lit "fly_mode", .int fly_mode),
    (lit "resource_capacity", .int resource_capacity),
    (lit "resource_decay", .float resource_decay),
    (lit "blast_defense_level", .int blast_defense_level),
    (lit "combat_level", .int combat_level),
    (lit "interaction_mode", .int interaction_mode),
    (lit "minimap_mode", .int minimap_mode),
    (lit "interface_kind", .int interface_kind),
    (lit "multiple_attribute_mode", .float multiple_attribute_mode),
    (lit "minimap_color", .int minimap_color),
    (lit "language_dll_help", .int language_dll_help),
    (lit "language_dll_hotkey_text", .int language_dll_hotkey_text),
    (lit "hot_key", hot_key),
    (lit "recyclable", .int recyclable),
    (lit "enable_auto_gather", .int enable_auto_gather),
    (lit "create_doppelganger_on_death", .int create_doppelganger_on_death),
    (lit "resource_gather_group", .int resource_gather_group),
    (lit "occlusion_mode", .int occlusion_mode),
    (lit "obstruction_type", .int obstruction_type),
    (lit "obstruction_class", .int obstruction_class),
    (lit "trait", .int trait),
    (lit "civilization", .int civilization),
    (lit "nothing", .int nothing),
    (lit "selection_effect", .int selection_effect),
    (lit "editor_selection_colour", .int editor_selection_colour),
    (lit "outline_size_x", .float outline_size_x),
    (lit "outline_size_y", .float outline_size_y),
    (lit "outline_size_z", .float outline_size_z),
    (lit "scenario_triggers_1", .int scenario_triggers_1),
    (lit "scenario_triggers_2", .int scenario_triggers_2),
    (lit "resource_storages", resource_storages),
    (lit "damage_graphics", damage_graphics),
    (lit "selection_sound", .int selection_sound),
    (lit "dying_sound", .int dying_sound),
    (lit "wwise_train_sound_id", .int wwise_train_sound_id),
    (lit "wwise_damage_sound_id", .int wwise_damage_sound_id),
    (lit "wwise_selection_sound_id", .int wwise_selection_sound_id),
    (lit "wwise_dying_sound_id", .int wwise_dying_sound_id),
    (lit "old_attack_reaction", .int old_attack_reaction),
    (lit "convert_terrain", .int convert_terrain),
    (lit "name", .str name),
    (lit "copy_id", .int copy_id),
    (lit "base_id", .int base_id),
    (lit "speed", speed),
    (lit "dead_fish", dead_fish),
    (lit "bird", bird),
    (lit "type_50", type_50),
    (lit "projectile", projectile),
    (lit "creatable", creatable),
    (lit "building", building)])

/-- `Unit.from_bytes` — `/repo/src/genieutils/unit.py:1136-1139`. -/
def Unit.build : HReader HVal := do
  let version ← lift getVersion
  if version.ge .VER_88 then Unit.build88
  else Unit.build84

/-- `UnitHeaders.from_bytes` — `/repo/src/genieutils/unitheaders.py:14-23`. -/
def UnitHeaders.build : HReader HVal := do
  let exists_ ← lift readInt8
  if exists_ ≠ 0 then do
    let task_count ← lift readInt16
    let task_list ← HReader.readClassArray Task.build task_count
    alloc (.record (lit "UnitHeaders") [
      (lit "exists", .int exists_),
      (lit "task_list", task_list)])
  else
    alloc (.record (lit "UnitHeaders") [
      (lit "exists", .int exists_),
      (lit "task_list", .none)])

/-- `Civ.from_bytes` — `/repo/src/genieutils/civ.py:19-38`. -/
def Civ.build : HReader HVal := do
  let player_type ← lift (readInt8)
  let name ← lift (readDebugString)
  let resources_size ← lift (readInt16)
  let tech_tree_id ← lift (readInt16)
  let team_bonus_id ← lift (readInt16)
  let resources ← HReader.readFloatArray resources_size
  let icon_set ← lift (readInt8)
  let units_size ← lift (readInt16)
  let unit_pointers ← HReader.readInt32Array units_size
  let units ← HReader.readClassArrayWithPointers Unit.build units_size unit_pointers
  alloc (.record (lit "Civ") [
    (lit "player_type", .int player_type),
    (lit "name", .str name),
    (lit "tech_tree_id", .int tech_tree_id),
    (lit "team_bonus_id", .int team_bonus_id),
    (lit "resources", resources),
    (lit "icon_set", .int icon_set),
    (lit "units", units)])

/-- `DatFile.from_bytes` — `/repo/src/genieutils/datfile.py:58-114` (the `noteLossy` line is ghost, see `DatFile.fromBytes`). -/
def DatFile.build : HReader HVal := do
  let version ← lift (readString 8)
  let content_version ← lift (liftPy (Version.ofStr version))
  lift (setVersion content_version)
  let terrain_restrictions_size ← lift (readInt16)
  let terrains_used_1 ← lift (readInt16)
  let float_ptr_terrain_tables ← HReader.readInt32Array terrain_restrictions_size
  let terrain_pass_graphic_pointers ← HReader.readInt32Array terrain_restrictions_size
  let terrain_restrictions ← HReader.readClassArrayWithParam TerrainRestriction.buildWithCount terrain_restrictions_size terrains_used_1
  lift (noteLossy (decide (terrain_restrictions_size.toNat = 0 ∧ terrains_used_1 ≠ 0)))
  let player_colours_size ← lift (readInt16)
  let player_colours ← HReader.readClassArray PlayerColour.build player_colours_size
  let sounds_size ← lift (readInt16)
  let sounds ← HReader.readClassArray Sound.build sounds_size
  let graphics_size ← lift (readInt16)
  let graphic_pointers ← HReader.readInt32Array graphics_size
  let graphics ← HReader.readClassArrayWithPointers Graphic.build graphics_size graphic_pointers
  let terrain_block ← HReader.readClass TerrainBlock.build
  let random_maps ← HReader.readClass RandomMaps.build
  let effects_size ← lift (readInt32)
  let effects ← HReader.readClassArray Effect.build effects_size
  let unit_headers_size ← lift (readInt32)
  let unit_headers ← HReader.readClassArray UnitHeaders.build unit_headers_size
  let civs_size ← lift (readInt16)
  let civs ← HReader.readClassArray Civ.build civs_size
  let techs_size ← lift (readInt16)
  let techs ← HReader.readClassArray Tech.build techs_size
  let time_slice ← lift (readInt32)
  let unit_kill_rate ← lift (readInt32)
  let unit_kill_total ← lift (readInt32)
  let unit_hit_point_rate ← lift (readInt32)
  let unit_hit_point_total ← lift (readInt32)
  let razing_kill_rate ← lift (readInt32)
  let razing_kill_total ← lift (readInt32)
  let tech_tree ← HReader.readClass TechTree.build
  alloc (.record (lit "DatFile") [
    (lit "version", .str version),
    (lit "float_ptr_terrain_tables", float_ptr_terrain_tables),
    (lit "terrain_pass_graphic_pointers", terrain_pass_graphic_pointers),
    (lit "terrain_restrictions", terrain_restrictions),
    (lit "player_colours", player_colours),
    (lit "sounds", sounds),
    (lit "graphics", graphics),
    (lit "terrain_block", terrain_block),
    (lit "random_maps", random_maps),
    (lit "effects", effects),
    (lit "unit_headers", unit_headers),
    (lit "civs", civs),
    (lit "techs", techs),
    (lit "time_slice", .int time_slice),
    (lit "unit_kill_rate", .int unit_kill_rate),
    (lit "unit_kill_total", .int unit_kill_total),
    (lit "unit_hit_point_rate", .int unit_hit_point_rate),
    (lit "unit_hit_point_total", .int unit_hit_point_total),
    (lit "razing_kill_rate", .int razing_kill_rate),
    (lit "razing_kill_total", .int razing_kill_total),
    (lit "tech_tree", tech_tree)])

end Genie
