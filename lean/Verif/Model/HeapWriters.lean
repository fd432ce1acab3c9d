import Verif.Model.HeapWrite
/-!
# `to_bytes` of every class, on objects

The `to_bytes` functions of `/repo/src/genieutils` a second time, statement by statement, on a heap.  `rec` is how they call `to_bytes` of
other objects (`W.toBytes` at the end: by the class of that object, as Python does).  (Generated by `tools/gen_heapwrite.py`.)
-/

set_option linter.unusedVariables false

namespace Genie

/-- `Version(o)` (Python): only strings are values of the enumeration. -/
def W.version (o : Py HVal) : Py Version := do
  match ← o with
  | .str s => Version.ofStr s
  | _ => .error .valueError

/-- `self.write_int_32_array([(0 if g is None else 1) for g in o])`: the properties `graphic_pointers`
(`/repo/src/genieutils/datfile.py:116-118,141`) and `unit_pointers` (`/repo/src/genieutils/civ.py:40-42,54`). -/
def W.pointers (H : Heap) (o : Py HVal) : Py Bytes := do
  let vs ← W.iter H o
  joinB ((vs.map fun v => if v = .none then HVal.int 0 else HVal.int 1).map fun v => W.int32 H (.ok v))

/-- `EffectCommand.to_bytes` — `/repo/src/genieutils/effect.py:25-32`. -/
def EffectCommand.write (H : Heap) (rec : W.Rec) (self : HVal) (version : Version) : Py Bytes :=
  joinB [
    W.int8 H (W.attr H self (lit "type")),
    W.int16 H (W.attr H self (lit "a")),
    W.int16 H (W.attr H self (lit "b")),
    W.int16 H (W.attr H self (lit "c")),
    W.float (W.attr H self (lit "d"))]

/-- `Effect.to_bytes` — `/repo/src/genieutils/effect.py:50-55`. -/
def Effect.write (H : Heap) (rec : W.Rec) (self : HVal) (version : Version) : Py Bytes :=
  joinB [
    W.debugString (W.attr H self (lit "name")),
    W.int16 H (W.nat (W.len H (W.attr H self (lit "effect_commands")))),
    W.classArray H rec (W.attr H self (lit "effect_commands")) version]

/-- `SoundItem.to_bytes` — `/repo/src/genieutils/sound.py:25-32`. -/
def SoundItem.write (H : Heap) (rec : W.Rec) (self : HVal) (version : Version) : Py Bytes :=
  joinB [
    W.debugString (W.attr H self (lit "filename")),
    W.int32 H (W.attr H self (lit "resource_id")),
    W.int16 H (W.attr H self (lit "probability")),
    W.int16 H (W.attr H self (lit "civilization")),
    W.int16 H (W.attr H self (lit "icon_set"))]

/-- `Sound.to_bytes` — `/repo/src/genieutils/sound.py:59-67`. -/
def Sound.write (H : Heap) (rec : W.Rec) (self : HVal) (version : Version) : Py Bytes :=
  joinB [
    W.int16 H (W.attr H self (lit "id")),
    W.int16 H (W.attr H self (lit "play_delay")),
    W.int16 H (W.nat (W.len H (W.attr H self (lit "items")))),
    W.int32 H (W.attr H self (lit "cache_time")),
    W.int16 H (W.attr H self (lit "total_probability")),
    W.classArray H rec (W.attr H self (lit "items")) version]

/-- `PlayerColour.to_bytes` — `/repo/src/genieutils/playercolour.py:33-44`. -/
def PlayerColour.write (H : Heap) (rec : W.Rec) (self : HVal) (version : Version) : Py Bytes :=
  joinB [
    W.int32 H (W.attr H self (lit "id")),
    W.int32 H (W.attr H self (lit "player_color_base")),
    W.int32 H (W.attr H self (lit "unit_outline_color")),
    W.int32 H (W.attr H self (lit "unit_selection_color_1")),
    W.int32 H (W.attr H self (lit "unit_selection_color_2")),
    W.int32 H (W.attr H self (lit "minimap_color")),
    W.int32 H (W.attr H self (lit "minimap_color_2")),
    W.int32 H (W.attr H self (lit "minimap_color_3")),
    W.int32 H (W.attr H self (lit "statistics_text"))]

/-- `GraphicDelta.to_bytes` — `/repo/src/genieutils/graphic.py:29-38`. -/
def GraphicDelta.write (H : Heap) (rec : W.Rec) (self : HVal) (version : Version) : Py Bytes :=
  joinB [
    W.int16 H (W.attr H self (lit "graphic_id")),
    W.int16 H (W.attr H self (lit "padding_1")),
    W.int32 H (W.attr H self (lit "sprite_ptr")),
    W.int16 H (W.attr H self (lit "offset_x")),
    W.int16 H (W.attr H self (lit "offset_y")),
    W.int16 H (W.attr H self (lit "display_angle")),
    W.int16 H (W.attr H self (lit "padding_2"))]

/-- `GraphicAngleSound.to_bytes` — `/repo/src/genieutils/graphic.py:67-78`. -/
def GraphicAngleSound.write (H : Heap) (rec : W.Rec) (self : HVal) (version : Version) : Py Bytes :=
  joinB [
    W.int16 H (W.attr H self (lit "frame_num")),
    W.int16 H (W.attr H self (lit "sound_id")),
    W.int32 H (W.attr H self (lit "wwise_sound_id")),
    W.int16 H (W.attr H self (lit "frame_num_2")),
    W.int16 H (W.attr H self (lit "sound_id_2")),
    W.int32 H (W.attr H self (lit "wwise_sound_id_2")),
    W.int16 H (W.attr H self (lit "frame_num_3")),
    W.int16 H (W.attr H self (lit "sound_id_3")),
    W.int32 H (W.attr H self (lit "wwise_sound_id_3"))]

/-- `Graphic.to_bytes` — `/repo/src/genieutils/graphic.py:162-189`. -/
def Graphic.write (H : Heap) (rec : W.Rec) (self : HVal) (version : Version) : Py Bytes :=
  joinB [
    W.debugString (W.attr H self (lit "name")),
    W.debugString (W.attr H self (lit "file_name")),
    W.debugString (W.attr H self (lit "particle_effect_name")),
    W.int32 H (W.attr H self (lit "slp")),
    W.int8 H (W.attr H self (lit "is_loaded")),
    W.int8 H (W.attr H self (lit "old_color_flag")),
    W.int8 H (W.attr H self (lit "layer")),
    W.int16 H (W.attr H self (lit "player_color")),
    W.int8 H (W.attr H self (lit "transparent_selection")),
    W.int16Array H (W.attr H self (lit "coordinates")),
    W.int16 H (W.nat (W.len H (W.attr H self (lit "deltas")))),
    W.int16 H (W.attr H self (lit "sound_id")),
    W.int32 H (W.attr H self (lit "wwise_sound_id")),
    W.int8 H (W.attr H self (lit "angle_sounds_used")),
    W.int16 H (W.attr H self (lit "frame_count")),
    W.int16 H (W.attr H self (lit "angle_count")),
    W.float (W.attr H self (lit "speed_multiplier")),
    W.float (W.attr H self (lit "frame_duration")),
    W.float (W.attr H self (lit "replay_delay")),
    W.int8 H (W.attr H self (lit "sequence_type")),
    W.int16 H (W.attr H self (lit "id")),
    W.int8 H (W.attr H self (lit "mirroring_mode")),
    W.int8 H (W.attr H self (lit "editor_flag")),
    W.classArray H rec (W.attr H self (lit "deltas")) version,
    W.classArray H rec (W.attr H self (lit "angle_sounds")) version]

/-- `TerrainPassGraphic.to_bytes` — `/repo/src/genieutils/terrainrestriction.py:23-29`. -/
def TerrainPassGraphic.write (H : Heap) (rec : W.Rec) (self : HVal) (version : Version) : Py Bytes :=
  joinB [
    W.int32 H (W.attr H self (lit "exit_tile_sprite_id")),
    W.int32 H (W.attr H self (lit "enter_tile_sprite_id")),
    W.int32 H (W.attr H self (lit "walk_tile_sprite_id")),
    W.int32 H (W.attr H self (lit "walk_sprite_rate"))]

/-- `TerrainRestriction.to_bytes` — `/repo/src/genieutils/terrainrestriction.py:44-49`. -/
def TerrainRestriction.write (H : Heap) (rec : W.Rec) (self : HVal) (version : Version) : Py Bytes := do
  let n ← W.len H (W.attr H self (lit "passable_buildable_dmg_multiplier"))
  let m ← W.len H (W.attr H self (lit "terrain_pass_graphics"))
  if n ≠ m then .error .assertionError
  else joinB [
    W.floatArray H (W.attr H self (lit "passable_buildable_dmg_multiplier")),
    W.classArray H rec (W.attr H self (lit "terrain_pass_graphics")) version]

/-- `FrameData.to_bytes` — `/repo/src/genieutils/terrainblock.py:21-26`. -/
def FrameData.write (H : Heap) (rec : W.Rec) (self : HVal) (version : Version) : Py Bytes :=
  joinB [
    W.int16 H (W.attr H self (lit "frame_count")),
    W.int16 H (W.attr H self (lit "angle_count")),
    W.int16 H (W.attr H self (lit "shape_id"))]

/-- `Terrain.to_bytes` — `/repo/src/genieutils/terrainblock.py:113-153`. -/
def Terrain.write (H : Heap) (rec : W.Rec) (self : HVal) (version : Version) : Py Bytes :=
  joinB [
    W.int8 H (W.attr H self (lit "enabled")),
    W.int8 H (W.attr H self (lit "random")),
    W.int8 H (W.attr H self (lit "is_water")),
    W.int8 H (W.attr H self (lit "hide_in_editor")),
    W.int32 H (W.attr H self (lit "string_id")),
    W.debugString (W.attr H self (lit "name")),
    W.debugString (W.attr H self (lit "name_2")),
    W.int32 H (W.attr H self (lit "slp")),
    W.int32 H (W.attr H self (lit "shape_ptr")),
    W.int32 H (W.attr H self (lit "sound_id")),
    W.int32 H (W.attr H self (lit "wwise_sound_id")) (signed := false),
    W.int32 H (W.attr H self (lit "wwise_sound_stop_id")) (signed := false),
    W.int32 H (W.attr H self (lit "blend_priority")),
    W.int32 H (W.attr H self (lit "blend_type")),
    W.debugString (W.attr H self (lit "overlay_mask_name")),
    W.int8Array H (W.attr H self (lit "colors")),
    W.int8Array H (W.attr H self (lit "cliff_colors")),
    W.int8 H (W.attr H self (lit "passable_terrain")),
    W.int8 H (W.attr H self (lit "impassable_terrain")),
    W.int8 H (W.attr H self (lit "is_animated")),
    W.int16 H (W.attr H self (lit "animation_frames")),
    W.int16 H (W.attr H self (lit "pause_frames")),
    W.float (W.attr H self (lit "interval")),
    W.float (W.attr H self (lit "pause_between_loops")),
    W.int16 H (W.attr H self (lit "frame")),
    W.int16 H (W.attr H self (lit "draw_frame")),
    W.float (W.attr H self (lit "animate_last")),
    W.int8 H (W.attr H self (lit "frame_changed")),
    W.int8 H (W.attr H self (lit "drawn")),
    W.classArray H rec (W.attr H self (lit "frame_data")) version,
    W.int16 H (W.attr H self (lit "terrain_to_draw")),
    W.int16Array H (W.attr H self (lit "terrain_dimensions")),
    W.int16Array H (W.attr H self (lit "terrain_unit_masked_density")),
    W.int16Array H (W.attr H self (lit "terrain_unit_id")),
    W.int16Array H (W.attr H self (lit "terrain_unit_density")),
    W.int8Array H (W.attr H self (lit "terrain_unit_centering")),
    W.int16 H (W.attr H self (lit "number_of_terrain_units_used")),
    W.int16 H (W.attr H self (lit "phantom"))]

/-- `TileSize.to_bytes` — `/repo/src/genieutils/terrainblock.py:170-175`. -/
def TileSize.write (H : Heap) (rec : W.Rec) (self : HVal) (version : Version) : Py Bytes :=
  joinB [
    W.int16 H (W.attr H self (lit "width")),
    W.int16 H (W.attr H self (lit "height")),
    W.int16 H (W.attr H self (lit "delta_y"))]

/-- `TerrainBlock.to_bytes` — `/repo/src/genieutils/terrainblock.py:254-290`. -/
def TerrainBlock.write (H : Heap) (rec : W.Rec) (self : HVal) (version : Version) : Py Bytes :=
  joinB [
    W.int32 H (W.attr H self (lit "virtual_function_ptr")) (signed := false),
    W.int32 H (W.attr H self (lit "map_pointer")) (signed := false),
    W.int32 H (W.attr H self (lit "map_width")),
    W.int32 H (W.attr H self (lit "map_height")),
    W.int32 H (W.attr H self (lit "world_width")),
    W.int32 H (W.attr H self (lit "world_height")),
    W.classArray H rec (W.attr H self (lit "tile_sizes")) version,
    W.int16 H (W.attr H self (lit "padding_ts")),
    W.classArray H rec (W.attr H self (lit "terrains")) version,
    W.float (W.attr H self (lit "map_min_x")),
    W.float (W.attr H self (lit "map_min_y")),
    W.float (W.attr H self (lit "map_max_x")),
    W.float (W.attr H self (lit "map_max_y")),
    W.float (W.attr H self (lit "map_max_x_plus_1")),
    W.float (W.attr H self (lit "map_max_y_plus_1")),
    W.int16 H (W.attr H self (lit "terrains_used_2")),
    W.int16 H (W.attr H self (lit "borders_used")),
    W.int16 H (W.attr H self (lit "max_terrain")),
    W.int16 H (W.attr H self (lit "tile_width")),
    W.int16 H (W.attr H self (lit "tile_height")),
    W.int16 H (W.attr H self (lit "tile_half_height")),
    W.int16 H (W.attr H self (lit "tile_half_width")),
    W.int16 H (W.attr H self (lit "elev_height")),
    W.int16 H (W.attr H self (lit "cur_row")),
    W.int16 H (W.attr H self (lit "cur_col")),
    W.int16 H (W.attr H self (lit "block_beg_row")),
    W.int16 H (W.attr H self (lit "block_end_row")),
    W.int16 H (W.attr H self (lit "block_beg_col")),
    W.int16 H (W.attr H self (lit "block_end_col")),
    W.int32 H (W.attr H self (lit "search_map_ptr")) (signed := false),
    W.int32 H (W.attr H self (lit "search_map_rows_ptr")) (signed := false),
    W.int8 H (W.attr H self (lit "any_frame_change")),
    W.int8 H (W.attr H self (lit "map_visible_flag")),
    W.int8 H (W.attr H self (lit "fog_flag"))]

/-- `MapUnit.to_bytes` — `/repo/src/genieutils/randommaps.py:41-56`. -/
def MapUnit.write (H : Heap) (rec : W.Rec) (self : HVal) (version : Version) : Py Bytes :=
  joinB [
    W.int32 H (W.attr H self (lit "unit")),
    W.int32 H (W.attr H self (lit "host_terrain")),
    W.int8 H (W.attr H self (lit "group_placing")),
    W.int8 H (W.attr H self (lit "scale_flag")),
    W.int16 H (W.attr H self (lit "padding_1")),
    W.int32 H (W.attr H self (lit "objects_per_group")),
    W.int32 H (W.attr H self (lit "fluctuation")),
    W.int32 H (W.attr H self (lit "groups_per_player")),
    W.int32 H (W.attr H self (lit "group_arena")),
    W.int32 H (W.attr H self (lit "player_id")),
    W.int32 H (W.attr H self (lit "set_place_for_all_players")),
    W.int32 H (W.attr H self (lit "min_distance_to_players")),
    W.int32 H (W.attr H self (lit "max_distance_to_players"))]

/-- `MapTerrain.to_bytes` — `/repo/src/genieutils/randommaps.py:79-87`. -/
def MapTerrain.write (H : Heap) (rec : W.Rec) (self : HVal) (version : Version) : Py Bytes :=
  joinB [
    W.int32 H (W.attr H self (lit "proportion")),
    W.int32 H (W.attr H self (lit "terrain")),
    W.int32 H (W.attr H self (lit "clump_count")),
    W.int32 H (W.attr H self (lit "edge_spacing")),
    W.int32 H (W.attr H self (lit "placement_terrain")),
    W.int32 H (W.attr H self (lit "clumpiness"))]

/-- `MapLand.to_bytes` — `/repo/src/genieutils/randommaps.py:128-145`. -/
def MapLand.write (H : Heap) (rec : W.Rec) (self : HVal) (version : Version) : Py Bytes :=
  joinB [
    W.int32 H (W.attr H self (lit "land_id")),
    W.int32 H (W.attr H self (lit "terrain")) (signed := false),
    W.int32 H (W.attr H self (lit "land_spacing")),
    W.int32 H (W.attr H self (lit "base_size")),
    W.int8 H (W.attr H self (lit "zone")),
    W.int8 H (W.attr H self (lit "placement_type")),
    W.int16 H (W.attr H self (lit "padding_1")),
    W.int32 H (W.attr H self (lit "base_x")),
    W.int32 H (W.attr H self (lit "base_y")),
    W.int8 H (W.attr H self (lit "land_proportion")),
    W.int8 H (W.attr H self (lit "by_player_flag")),
    W.int16 H (W.attr H self (lit "padding_2")),
    W.int32 H (W.attr H self (lit "start_area_radius")),
    W.int32 H (W.attr H self (lit "terrain_edge_fade")),
    W.int32 H (W.attr H self (lit "clumpiness"))]

/-- `MapElevation.to_bytes` — `/repo/src/genieutils/randommaps.py:168-176`. -/
def MapElevation.write (H : Heap) (rec : W.Rec) (self : HVal) (version : Version) : Py Bytes :=
  joinB [
    W.int32 H (W.attr H self (lit "proportion")),
    W.int32 H (W.attr H self (lit "terrain")),
    W.int32 H (W.attr H self (lit "clump_count")),
    W.int32 H (W.attr H self (lit "base_terrain")),
    W.int32 H (W.attr H self (lit "base_elevation")),
    W.int32 H (W.attr H self (lit "tile_spacing"))]

/-- `MapInfo.to_bytes` — `/repo/src/genieutils/randommaps.py:253-277`. -/
def MapInfo.write (H : Heap) (rec : W.Rec) (self : HVal) (version : Version) : Py Bytes :=
  joinB [
    W.int32 H (W.attr H self (lit "map_id")),
    W.int32 H (W.attr H self (lit "border_south_west")),
    W.int32 H (W.attr H self (lit "border_north_west")),
    W.int32 H (W.attr H self (lit "border_north_east")),
    W.int32 H (W.attr H self (lit "border_south_east")),
    W.int32 H (W.attr H self (lit "border_usage")),
    W.int32 H (W.attr H self (lit "water_shape")),
    W.int32 H (W.attr H self (lit "base_terrain")),
    W.int32 H (W.attr H self (lit "land_coverage")),
    W.int32 H (W.attr H self (lit "unused_id")),
    W.int32 H (W.attr H self (lit "map_lands_size")) (signed := false),
    W.int32 H (W.attr H self (lit "map_lands_ptr")),
    W.classArray H rec (W.attr H self (lit "map_lands")) version,
    W.int32 H (W.attr H self (lit "map_terrains_size")) (signed := false),
    W.int32 H (W.attr H self (lit "map_terrains_ptr")),
    W.classArray H rec (W.attr H self (lit "map_terrains")) version,
    W.int32 H (W.attr H self (lit "map_units_size")) (signed := false),
    W.int32 H (W.attr H self (lit "map_units_ptr")),
    W.classArray H rec (W.attr H self (lit "map_units")) version,
    W.int32 H (W.attr H self (lit "map_elevations_size")) (signed := false),
    W.int32 H (W.attr H self (lit "map_elevations_ptr")),
    W.classArray H rec (W.attr H self (lit "map_elevations")) version]

/-- `RandomMaps.to_bytes` — `/repo/src/genieutils/randommaps.py:298-305`. -/
def RandomMaps.write (H : Heap) (rec : W.Rec) (self : HVal) (version : Version) : Py Bytes := do
  let n ← W.len H (W.attr H self (lit "map_info_1"))
  let m ← W.len H (W.attr H self (lit "map_info_2"))
  if n ≠ m then .error .assertionError
  else joinB [
    W.int32 H (W.nat (W.len H (W.attr H self (lit "map_info_1")))) (signed := false),
    W.int32 H (W.attr H self (lit "random_maps_ptr")),
    W.classArray H rec (W.attr H self (lit "map_info_1")) version,
    W.classArray H rec (W.attr H self (lit "map_info_2")) version]

/-- `ResearchResourceCost.to_bytes` — `/repo/src/genieutils/tech.py:21-26`. -/
def ResearchResourceCost.write (H : Heap) (rec : W.Rec) (self : HVal) (version : Version) : Py Bytes :=
  joinB [
    W.int16 H (W.attr H self (lit "type")),
    W.int16 H (W.attr H self (lit "amount")),
    W.int8 H (W.attr H self (lit "flag"))]

/-- `ResearchLocation.to_bytes` — `/repo/src/genieutils/tech.py:45-51`. -/
def ResearchLocation.write (H : Heap) (rec : W.Rec) (self : HVal) (version : Version) : Py Bytes :=
  joinB [
    W.int16 H (W.attr H self (lit "location_id")),
    W.int16 H (W.attr H self (lit "research_time")),
    W.int8 H (W.attr H self (lit "button_id")),
    W.int32 H (W.attr H self (lit "hot_key_id"))]

/-- `Tech.to_bytes_84` — `/repo/src/genieutils/tech.py:162-191`. -/
def Tech.write84 (H : Heap) (rec : W.Rec) (self : HVal) (version : Version) : Py Bytes := do
  let n ← W.len H (W.attr H self (lit "research_locations"))
  let research_location ← if n ≠ 0 then (W.attrOf H (W.item H (W.attr H self (lit "research_locations")) 0) (lit "location_id")) else .ok (.int (-1))
  let research_time ← if n ≠ 0 then (W.attrOf H (W.item H (W.attr H self (lit "research_locations")) 0) (lit "research_time")) else .ok (.int (0))
  let button_id ← if n ≠ 0 then (W.attrOf H (W.item H (W.attr H self (lit "research_locations")) 0) (lit "button_id")) else .ok (.int (0))
  let hot_key ← if n ≠ 0 then (W.attrOf H (W.item H (W.attr H self (lit "research_locations")) 0) (lit "hot_key_id")) else .ok (.int (-1))
  joinB [
    W.int16Array H (W.attr H self (lit "required_techs")),
    W.classArray H rec (W.attr H self (lit "resource_costs")) version,
    W.int16 H (W.attr H self (lit "required_tech_count")),
    W.int16 H (W.attr H self (lit "civ")),
    W.int16 H (W.attr H self (lit "full_tech_mode")),
    W.int16 H (.ok research_location),
    W.int32 H (W.attr H self (lit "language_dll_name")),
    W.int32 H (W.attr H self (lit "language_dll_description")),
    W.int16 H (.ok research_time),
    W.int16 H (W.attr H self (lit "effect_id")),
    W.int16 H (W.attr H self (lit "type")),
    W.int16 H (W.attr H self (lit "icon_id")),
    W.int8 H (.ok button_id),
    W.int32 H (W.attr H self (lit "language_dll_help")),
    W.int32 H (W.attr H self (lit "language_dll_tech_tree")),
    W.int32 H (.ok hot_key),
    W.debugString (W.attr H self (lit "name")),
    W.int8 H (W.attr H self (lit "repeatable"))]

/-- `Tech.to_bytes_88` — `/repo/src/genieutils/tech.py:193-211`. -/
def Tech.write88 (H : Heap) (rec : W.Rec) (self : HVal) (version : Version) : Py Bytes :=
  joinB [
    W.int16Array H (W.attr H self (lit "required_techs")),
    W.classArray H rec (W.attr H self (lit "resource_costs")) version,
    W.int16 H (W.attr H self (lit "required_tech_count")),
    W.int16 H (W.attr H self (lit "civ")),
    W.int16 H (W.attr H self (lit "full_tech_mode")),
    W.int32 H (W.attr H self (lit "language_dll_name")),
    W.int32 H (W.attr H self (lit "language_dll_description")),
    W.int16 H (W.attr H self (lit "effect_id")),
    W.int16 H (W.attr H self (lit "type")),
    W.int16 H (W.attr H self (lit "icon_id")),
    W.int32 H (W.attr H self (lit "language_dll_help")),
    W.int32 H (W.attr H self (lit "language_dll_tech_tree")),
    W.debugString (W.attr H self (lit "name")),
    W.int8 H (W.attr H self (lit "repeatable")),
    W.int16 H (W.nat (W.len H (W.attr H self (lit "research_locations")))),
    W.classArray H rec (W.attr H self (lit "research_locations")) version]

/-- `Tech.to_bytes` — `/repo/src/genieutils/tech.py:158-161`. -/
def Tech.write (H : Heap) (rec : W.Rec) (self : HVal) (version : Version) : Py Bytes :=
  if version.ge .VER_88 then Tech.write88 H rec self version
  else Tech.write84 H rec self version

/-- `Common.to_bytes` — `/repo/src/genieutils/techtree.py:21-26`. -/
def Common.write (H : Heap) (rec : W.Rec) (self : HVal) (version : Version) : Py Bytes :=
  joinB [
    W.int32 H (W.attr H self (lit "slots_used")),
    W.int32Array H (W.attr H self (lit "unit_research")),
    W.int32Array H (W.attr H self (lit "mode"))]

/-- `TechTreeAge.to_bytes` — `/repo/src/genieutils/techtree.py:73-89`. -/
def TechTreeAge.write (H : Heap) (rec : W.Rec) (self : HVal) (version : Version) : Py Bytes :=
  joinB [
    W.int32 H (W.attr H self (lit "id")),
    W.int8 H (W.attr H self (lit "status")),
    W.int8 H (W.nat (W.len H (W.attr H self (lit "buildings")))),
    W.int32Array H (W.attr H self (lit "buildings")),
    W.int8 H (W.nat (W.len H (W.attr H self (lit "units")))),
    W.int32Array H (W.attr H self (lit "units")),
    W.int8 H (W.nat (W.len H (W.attr H self (lit "techs")))),
    W.int32Array H (W.attr H self (lit "techs")),
    W.cls rec (W.attr H self (lit "common")) version,
    W.int8 H (W.attr H self (lit "num_building_levels")),
    W.int8Array H (W.attr H self (lit "buildings_per_zone")),
    W.int8Array H (W.attr H self (lit "group_length_per_zone")),
    W.int8 H (W.attr H self (lit "max_age_length")),
    W.int32 H (W.attr H self (lit "line_mode"))]

/-- `BuildingConnection.to_bytes` — `/repo/src/genieutils/techtree.py:136-152`. -/
def BuildingConnection.write (H : Heap) (rec : W.Rec) (self : HVal) (version : Version) : Py Bytes :=
  joinB [
    W.int32 H (W.attr H self (lit "id")),
    W.int8 H (W.attr H self (lit "status")),
    W.int8 H (W.nat (W.len H (W.attr H self (lit "buildings")))),
    W.int32Array H (W.attr H self (lit "buildings")),
    W.int8 H (W.nat (W.len H (W.attr H self (lit "units")))),
    W.int32Array H (W.attr H self (lit "units")),
    W.int8 H (W.nat (W.len H (W.attr H self (lit "techs")))),
    W.int32Array H (W.attr H self (lit "techs")),
    W.cls rec (W.attr H self (lit "common")) version,
    W.int8 H (W.attr H self (lit "location_in_age")),
    W.int8Array H (W.attr H self (lit "units_techs_total")),
    W.int8Array H (W.attr H self (lit "units_techs_first")),
    W.int32 H (W.attr H self (lit "line_mode")),
    W.int32 H (W.attr H self (lit "enabling_research"))]

/-- `UnitConnection.to_bytes` — `/repo/src/genieutils/techtree.py:194-207`. -/
def UnitConnection.write (H : Heap) (rec : W.Rec) (self : HVal) (version : Version) : Py Bytes :=
  joinB [
    W.int32 H (W.attr H self (lit "id")),
    W.int8 H (W.attr H self (lit "status")),
    W.int32 H (W.attr H self (lit "upper_building")),
    W.cls rec (W.attr H self (lit "common")) version,
    W.int32 H (W.attr H self (lit "vertical_line")),
    W.int8 H (W.nat (W.len H (W.attr H self (lit "units")))),
    W.int32Array H (W.attr H self (lit "units")),
    W.int32 H (W.attr H self (lit "location_in_age")),
    W.int32 H (W.attr H self (lit "required_research")),
    W.int32 H (W.attr H self (lit "line_mode")),
    W.int32 H (W.attr H self (lit "enabling_research"))]

/-- `ResearchConnection.to_bytes` — `/repo/src/genieutils/techtree.py:251-266`. -/
def ResearchConnection.write (H : Heap) (rec : W.Rec) (self : HVal) (version : Version) : Py Bytes :=
  joinB [
    W.int32 H (W.attr H self (lit "id")),
    W.int8 H (W.attr H self (lit "status")),
    W.int32 H (W.attr H self (lit "upper_building")),
    W.int8 H (W.nat (W.len H (W.attr H self (lit "buildings")))),
    W.int32Array H (W.attr H self (lit "buildings")),
    W.int8 H (W.nat (W.len H (W.attr H self (lit "units")))),
    W.int32Array H (W.attr H self (lit "units")),
    W.int8 H (W.nat (W.len H (W.attr H self (lit "techs")))),
    W.int32Array H (W.attr H self (lit "techs")),
    W.cls rec (W.attr H self (lit "common")) version,
    W.int32 H (W.attr H self (lit "vertical_line")),
    W.int32 H (W.attr H self (lit "location_in_age")),
    W.int32 H (W.attr H self (lit "line_mode"))]

/-- `TechTree.to_bytes` — `/repo/src/genieutils/techtree.py:296-307`. -/
def TechTree.write (H : Heap) (rec : W.Rec) (self : HVal) (version : Version) : Py Bytes :=
  joinB [
    W.int8 H (W.nat (W.len H (W.attr H self (lit "tech_tree_ages")))),
    W.int8 H (W.nat (W.len H (W.attr H self (lit "building_connections")))),
    W.int8 H (W.nat (W.len H (W.attr H self (lit "unit_connections")))),
    W.int8 H (W.nat (W.len H (W.attr H self (lit "research_connections")))),
    W.int32 H (W.attr H self (lit "total_unit_tech_groups")),
    W.classArray H rec (W.attr H self (lit "tech_tree_ages")) version,
    W.classArray H rec (W.attr H self (lit "building_connections")) version,
    W.classArray H rec (W.attr H self (lit "unit_connections")) version,
    W.classArray H rec (W.attr H self (lit "research_connections")) version]

/-- `Task.to_bytes_84` — `/repo/src/genieutils/task.py:206-239`. -/
def Task.write84 (H : Heap) (rec : W.Rec) (self : HVal) (version : Version) : Py Bytes :=
  W.pack TASK_FORMAT [
      W.arg (W.attr H self (lit "task_type")),
      W.arg (W.attr H self (lit "id")),
      W.arg (W.attr H self (lit "is_default")),
      W.arg (W.attr H self (lit "action_type")),
      W.arg (W.attr H self (lit "class_id")),
      W.arg (W.attr H self (lit "unit_id")),
      W.arg (W.attr H self (lit "terrain_id")),
      W.arg (W.attr H self (lit "resource_in")),
      W.arg (W.attr H self (lit "resource_multiplier")),
      W.arg (W.attr H self (lit "resource_out")),
      W.arg (W.attr H self (lit "unused_resource")),
      W.arg (W.attr H self (lit "work_value_1")),
      W.arg (W.attr H self (lit "work_value_2")),
      W.arg (W.attr H self (lit "work_range")),
      W.arg (W.attr H self (lit "auto_search_targets")),
      W.arg (W.attr H self (lit "search_wait_time")),
      W.arg (W.attr H self (lit "enable_targeting")),
      W.arg (W.attr H self (lit "combat_level_flag")),
      W.arg (W.attr H self (lit "gather_type")),
      W.arg (W.attr H self (lit "work_flag_2")),
      W.arg (W.attr H self (lit "target_diplomacy")),
      W.arg (W.attr H self (lit "carry_check")),
      W.arg (W.attr H self (lit "pick_for_construction")),
      W.arg (W.attr H self (lit "moving_graphic_id")),
      W.arg (W.attr H self (lit "proceeding_graphic_id")),
      W.arg (W.attr H self (lit "working_graphic_id")),
      W.arg (W.attr H self (lit "carrying_graphic_id")),
      W.arg (W.attr H self (lit "resource_gathering_sound_id")),
      W.arg (W.attr H self (lit "resource_deposit_sound_id")),
      W.arg (W.attr H self (lit "wwise_resource_gathering_sound_id")),
      W.arg (W.attr H self (lit "wwise_resource_deposit_sound_id"))]

/-- `Task.to_bytes_88` — `/repo/src/genieutils/task.py:242-276`. -/
def Task.write88 (H : Heap) (rec : W.Rec) (self : HVal) (version : Version) : Py Bytes :=
  W.pack TASK_FORMAT_88 [
      W.arg (W.attr H self (lit "task_type")),
      W.arg (W.attr H self (lit "id")),
      W.arg (W.attr H self (lit "is_default")),
      W.arg (W.attr H self (lit "action_type")),
      W.arg (W.attr H self (lit "class_id")),
      W.arg (W.attr H self (lit "unit_id")),
      W.arg (W.attr H self (lit "terrain_id")),
      W.arg (W.attr H self (lit "resource_in")),
      W.arg (W.attr H self (lit "resource_multiplier")),
      W.arg (W.attr H self (lit "resource_out")),
      W.arg (W.attr H self (lit "unused_resource")),
      W.arg (W.attr H self (lit "work_value_1")),
      W.arg (W.attr H self (lit "work_value_2")),
      W.arg (W.attr H self (lit "work_range")),
      W.arg (W.attr H self (lit "auto_search_targets")),
      W.arg (W.attr H self (lit "search_wait_time")),
      W.arg (W.attr H self (lit "enable_targeting")),
      W.arg (W.attr H self (lit "combat_level_flag")),
      W.arg (W.attr H self (lit "gather_type")),
      W.arg (W.attr H self (lit "work_flag_2")),
      W.arg (W.attr H self (lit "target_diplomacy")),
      W.arg (W.attr H self (lit "carry_check")),
      W.arg (W.attr H self (lit "pick_for_construction")),
      W.arg (W.attr H self (lit "moving_graphic_id")),
      W.arg (W.attr H self (lit "proceeding_graphic_id")),
      W.arg (W.attr H self (lit "working_graphic_id")),
      W.arg (W.attr H self (lit "carrying_graphic_id")),
      W.arg (W.attr H self (lit "resource_gathering_sound_id")),
      W.arg (W.attr H self (lit "resource_deposit_sound_id")),
      W.arg (W.attr H self (lit "wwise_resource_gathering_sound_id")),
      W.arg (W.attr H self (lit "wwise_resource_deposit_sound_id")),
      W.arg (W.attr H self (lit "enabled"))]

/-- `Task.to_bytes` — `/repo/src/genieutils/task.py:200-203`. -/
def Task.write (H : Heap) (rec : W.Rec) (self : HVal) (version : Version) : Py Bytes :=
  if version.ge .VER_88 then Task.write88 H rec self version
  else Task.write84 H rec self version

/-- `ResourceStorage.to_bytes` — `/repo/src/genieutils/unit.py:28-29`. -/
def ResourceStorage.write (H : Heap) (rec : W.Rec) (self : HVal) (version : Version) : Py Bytes :=
  W.pack RESOURCE_STORAGE_FORMAT [
      W.arg (W.attr H self (lit "type")),
      W.arg (W.attr H self (lit "amount")),
      W.arg (W.attr H self (lit "flag"))]

/-- `DamageGraphic.to_bytes` — `/repo/src/genieutils/unit.py:53-54`. -/
def DamageGraphic.write (H : Heap) (rec : W.Rec) (self : HVal) (version : Version) : Py Bytes :=
  W.pack DAMAGE_GRAPHIC_FORMAT [
      W.arg (W.attr H self (lit "graphic_id")),
      W.arg (W.attr H self (lit "damage_percent")),
      W.arg (W.attr H self (lit "apply_mode"))]

/-- `DeadFish.to_bytes` — `/repo/src/genieutils/unit.py:112-128`. -/
def DeadFish.write (H : Heap) (rec : W.Rec) (self : HVal) (version : Version) : Py Bytes :=
  W.pack DEAD_FISH_FORMAT [
      W.arg (W.attr H self (lit "walking_graphic")),
      W.arg (W.attr H self (lit "running_graphic")),
      W.arg (W.attr H self (lit "rotation_speed")),
      W.arg (W.attr H self (lit "old_size_class")),
      W.arg (W.attr H self (lit "tracking_unit")),
      W.arg (W.attr H self (lit "tracking_unit_mode")),
      W.arg (W.attr H self (lit "tracking_unit_density")),
      W.arg (W.attr H self (lit "old_move_algorithm")),
      W.arg (W.attr H self (lit "turn_radius")),
      W.arg (W.attr H self (lit "turn_radius_speed")),
      W.arg (W.attr H self (lit "max_yaw_per_second_moving")),
      W.arg (W.attr H self (lit "stationary_yaw_revolution_time")),
      W.arg (W.attr H self (lit "max_yaw_per_second_stationary")),
      W.arg (W.attr H self (lit "min_collision_size_multiplier"))]

/-- `Bird.to_bytes` — `/repo/src/genieutils/unit.py:176-191`. -/
def Bird.write (H : Heap) (rec : W.Rec) (self : HVal) (version : Version) : Py Bytes :=
  joinB [
    W.int16 H (W.attr H self (lit "default_task_id")),
    W.float (W.attr H self (lit "search_radius")),
    W.float (W.attr H self (lit "work_rate")),
    W.int16If H (W.nat (W.len H (W.attr H self (lit "drop_sites")))) (version.ge .VER_78),
    W.int16Array H (W.attr H self (lit "drop_sites")),
    W.int8 H (W.attr H self (lit "task_swap_group")),
    W.int16 H (W.attr H self (lit "attack_sound")),
    W.int16 H (W.attr H self (lit "move_sound")),
    W.int32 H (W.attr H self (lit "wwise_attack_sound_id")),
    W.int32 H (W.attr H self (lit "wwise_move_sound_id")),
    W.int8 H (W.attr H self (lit "run_pattern")),
    W.int16 H (W.nat (W.len H (W.attr H self (lit "tasks")))),
    W.classArray H rec (W.attr H self (lit "tasks")) version]

/-- `AttackOrArmor.to_bytes` — `/repo/src/genieutils/unit.py:211-212`. -/
def AttackOrArmor.write (H : Heap) (rec : W.Rec) (self : HVal) (version : Version) : Py Bytes :=
  W.pack ATTACK_OR_ARMOR_FORMAT [
      W.arg (W.attr H self (lit "class_")),
      W.arg (W.attr H self (lit "amount"))]

/-- `Type50.to_bytes` — `/repo/src/genieutils/unit.py:312-347`. -/
def Type50.write (H : Heap) (rec : W.Rec) (self : HVal) (version : Version) : Py Bytes :=
  joinB [
    joinB [
      W.int16 H (W.attr H self (lit "base_armor")),
      W.int16 H (W.nat (W.len H (W.attr H self (lit "attacks")))),
      W.classArray H rec (W.attr H self (lit "attacks")) version,
      W.int16 H (W.nat (W.len H (W.attr H self (lit "armours")))),
      W.classArray H rec (W.attr H self (lit "armours")) version,
      W.int16 H (W.attr H self (lit "defense_terrain_bonus")),
      W.float (W.attr H self (lit "bonus_damage_resistance")),
      W.float (W.attr H self (lit "max_range")),
      W.float (W.attr H self (lit "blast_width")),
      W.float (W.attr H self (lit "reload_time")),
      W.int16 H (W.attr H self (lit "projectile_unit_id")),
      W.int16 H (W.attr H self (lit "accuracy_percent")),
      W.int8 H (W.attr H self (lit "break_off_combat")),
      W.int16 H (W.attr H self (lit "frame_delay")),
      W.floatArray H (W.attr H self (lit "graphic_displacement")),
      W.int8 H (W.attr H self (lit "blast_attack_level")),
      W.float (W.attr H self (lit "min_range")),
      W.float (W.attr H self (lit "accuracy_dispersion")),
      W.int16 H (W.attr H self (lit "attack_graphic")),
      W.int16 H (W.attr H self (lit "displayed_melee_armour")),
      W.int16 H (W.attr H self (lit "displayed_attack")),
      W.float (W.attr H self (lit "displayed_range")),
      W.float (W.attr H self (lit "displayed_reload_time")),
      W.float (W.attr H self (lit "blast_damage"))],
    if version.ge .VER_84 then joinB [
      W.float (W.attr H self (lit "damage_reflection")),
      W.float (W.attr H self (lit "friendly_fire_damage")),
      W.int16 H (W.attr H self (lit "interrupt_frame")),
      W.float (W.attr H self (lit "garrison_firepower")),
      W.int16 H (W.attr H self (lit "attack_graphic_2"))]
    else .ok []]

/-- `Projectile.to_bytes` — `/repo/src/genieutils/unit.py:380-388`. -/
def Projectile.write (H : Heap) (rec : W.Rec) (self : HVal) (version : Version) : Py Bytes :=
  W.pack PROJECTILE_FORMAT [
      W.arg (W.attr H self (lit "projectile_type")),
      W.arg (W.attr H self (lit "smart_mode")),
      W.arg (W.attr H self (lit "hit_mode")),
      W.arg (W.attr H self (lit "vanish_mode")),
      W.arg (W.attr H self (lit "area_effect_specials")),
      W.arg (W.attr H self (lit "projectile_arc"))]

/-- `ResourceCost.to_bytes` — `/repo/src/genieutils/unit.py:410-411`. -/
def ResourceCost.write (H : Heap) (rec : W.Rec) (self : HVal) (version : Version) : Py Bytes :=
  W.pack RESOURCE_COST_FORMAT [
      W.arg (W.attr H self (lit "type")),
      W.arg (W.attr H self (lit "amount")),
      W.arg (W.attr H self (lit "flag"))]

/-- `TrainLocation.to_bytes` — `/repo/src/genieutils/unit.py:459-462`. -/
def TrainLocation.write (H : Heap) (rec : W.Rec) (self : HVal) (version : Version) : Py Bytes :=
  if version.ge .VER_88 then W.pack TRAIN_LOCATION_FORMAT_88 [
      W.arg (W.attr H self (lit "train_time")),
      W.arg (W.attr H self (lit "unit_id")),
      W.arg (W.attr H self (lit "button_id")),
      W.arg (W.attr H self (lit "hot_key_id"))]
  else W.pack TRAIN_LOCATION_FORMAT [
      W.arg (W.attr H self (lit "train_time")),
      W.arg (W.attr H self (lit "unit_id")),
      W.arg (W.attr H self (lit "button_id"))]

/-- `Creatable.to_bytes_78` — `/repo/src/genieutils/unit.py:765-793`. -/
def Creatable.write78 (H : Heap) (rec : W.Rec) (self : HVal) (version : Version) : Py Bytes :=
  joinB [
    W.classArray H rec (W.attr H self (lit "resource_costs")) version,
    W.pack CREATABLE_FORMAT [
      W.arg (W.attrOf H (W.item H (W.attr H self (lit "train_locations")) 0) (lit "train_time")),
      W.arg (W.attrOf H (W.item H (W.attr H self (lit "train_locations")) 0) (lit "unit_id")),
      W.arg (W.attrOf H (W.item H (W.attr H self (lit "train_locations")) 0) (lit "button_id")),
      W.arg (W.attr H self (lit "rear_attack_modifier")),
      W.arg (W.attr H self (lit "flank_attack_modifier")),
      W.arg (W.attr H self (lit "creatable_type")),
      W.arg (W.attr H self (lit "hero_mode")),
      W.arg (W.attr H self (lit "garrison_graphic")),
      W.arg (W.attr H self (lit "spawning_graphic")),
      W.arg (W.attr H self (lit "upgrade_graphic")),
      W.arg (W.attr H self (lit "hero_glow_graphic")),
      W.arg (W.attr H self (lit "max_charge")),
      W.arg (W.attr H self (lit "recharge_rate")),
      W.arg (W.attr H self (lit "charge_event")),
      W.arg (W.attr H self (lit "charge_type")),
      W.arg (W.attr H self (lit "min_conversion_time_mod")),
      W.arg (W.attr H self (lit "max_conversion_time_mod")),
      W.arg (W.attr H self (lit "conversion_chance_mod")),
      W.arg (W.attr H self (lit "total_projectiles")),
      W.arg (W.attr H self (lit "max_total_projectiles")),
      W.iter H (W.attr H self (lit "projectile_spawning_area")),
      W.arg (W.attr H self (lit "secondary_projectile_unit")),
      W.arg (W.attr H self (lit "special_graphic")),
      W.arg (W.attr H self (lit "special_ability")),
      W.arg (W.attr H self (lit "displayed_pierce_armour"))]]

/-- `Creatable.to_bytes_84` — `/repo/src/genieutils/unit.py:795-832`. -/
def Creatable.write84 (H : Heap) (rec : W.Rec) (self : HVal) (version : Version) : Py Bytes :=
  joinB [
    W.classArray H rec (W.attr H self (lit "resource_costs")) version,
    W.pack CREATABLE_FORMAT_84 [
      W.arg (W.attrOf H (W.item H (W.attr H self (lit "train_locations")) 0) (lit "train_time")),
      W.arg (W.attrOf H (W.item H (W.attr H self (lit "train_locations")) 0) (lit "unit_id")),
      W.arg (W.attrOf H (W.item H (W.attr H self (lit "train_locations")) 0) (lit "button_id")),
      W.arg (W.attr H self (lit "rear_attack_modifier")),
      W.arg (W.attr H self (lit "flank_attack_modifier")),
      W.arg (W.attr H self (lit "creatable_type")),
      W.arg (W.attr H self (lit "hero_mode")),
      W.arg (W.attr H self (lit "garrison_graphic")),
      W.arg (W.attr H self (lit "spawning_graphic")),
      W.arg (W.attr H self (lit "upgrade_graphic")),
      W.arg (W.attr H self (lit "hero_glow_graphic")),
      W.arg (W.attr H self (lit "idle_attack_graphic")),
      W.arg (W.attr H self (lit "max_charge")),
      W.arg (W.attr H self (lit "recharge_rate")),
      W.arg (W.attr H self (lit "charge_event")),
      W.arg (W.attr H self (lit "charge_type")),
      W.arg (W.attr H self (lit "charge_target")),
      W.arg (W.attr H self (lit "charge_projectile_unit")),
      W.arg (W.attr H self (lit "attack_priority")),
      W.arg (W.attr H self (lit "invulnerability_level")),
      W.arg (W.attr H self (lit "button_icon_id")),
      W.arg (W.attr H self (lit "button_short_tooltip_id")),
      W.arg (W.attr H self (lit "button_extended_tooltip_id")),
      W.arg (W.attr H self (lit "button_hotkey_action")),
      W.arg (W.attr H self (lit "min_conversion_time_mod")),
      W.arg (W.attr H self (lit "max_conversion_time_mod")),
      W.arg (W.attr H self (lit "conversion_chance_mod")),
      W.arg (W.attr H self (lit "total_projectiles")),
      W.arg (W.attr H self (lit "max_total_projectiles")),
      W.iter H (W.attr H self (lit "projectile_spawning_area")),
      W.arg (W.attr H self (lit "secondary_projectile_unit")),
      W.arg (W.attr H self (lit "special_graphic")),
      W.arg (W.attr H self (lit "special_ability")),
      W.arg (W.attr H self (lit "displayed_pierce_armour"))]]

/-- `Creatable.to_bytes_88` — `/repo/src/genieutils/unit.py:834-870`. -/
def Creatable.write88 (H : Heap) (rec : W.Rec) (self : HVal) (version : Version) : Py Bytes :=
  joinB [
    W.classArray H rec (W.attr H self (lit "resource_costs")) version,
    W.int16 H (W.nat (W.len H (W.attr H self (lit "train_locations")))),
    W.classArray H rec (W.attr H self (lit "train_locations")) version,
    W.pack CREATABLE_FORMAT_88 [
      W.arg (W.attr H self (lit "rear_attack_modifier")),
      W.arg (W.attr H self (lit "flank_attack_modifier")),
      W.arg (W.attr H self (lit "creatable_type")),
      W.arg (W.attr H self (lit "hero_mode")),
      W.arg (W.attr H self (lit "garrison_graphic")),
      W.arg (W.attr H self (lit "spawning_graphic")),
      W.arg (W.attr H self (lit "upgrade_graphic")),
      W.arg (W.attr H self (lit "hero_glow_graphic")),
      W.arg (W.attr H self (lit "idle_attack_graphic")),
      W.arg (W.attr H self (lit "max_charge")),
      W.arg (W.attr H self (lit "recharge_rate")),
      W.arg (W.attr H self (lit "charge_event")),
      W.arg (W.attr H self (lit "charge_type")),
      W.arg (W.attr H self (lit "charge_target")),
      W.arg (W.attr H self (lit "charge_projectile_unit")),
      W.arg (W.attr H self (lit "attack_priority")),
      W.arg (W.attr H self (lit "invulnerability_level")),
      W.arg (W.attr H self (lit "button_icon_id")),
      W.arg (W.attr H self (lit "button_short_tooltip_id")),
      W.arg (W.attr H self (lit "button_extended_tooltip_id")),
      W.arg (W.attr H self (lit "button_hotkey_action")),
      W.arg (W.attr H self (lit "min_conversion_time_mod")),
      W.arg (W.attr H self (lit "max_conversion_time_mod")),
      W.arg (W.attr H self (lit "conversion_chance_mod")),
      W.arg (W.attr H self (lit "total_projectiles")),
      W.arg (W.attr H self (lit "max_total_projectiles")),
      W.iter H (W.attr H self (lit "projectile_spawning_area")),
      W.arg (W.attr H self (lit "secondary_projectile_unit")),
      W.arg (W.attr H self (lit "special_graphic")),
      W.arg (W.attr H self (lit "special_ability")),
      W.arg (W.attr H self (lit "displayed_pierce_armour"))]]

/-- `Creatable.to_bytes` — `/repo/src/genieutils/unit.py:758-763`. -/
def Creatable.write (H : Heap) (rec : W.Rec) (self : HVal) (version : Version) : Py Bytes :=
  if version.ge .VER_88 then Creatable.write88 H rec self version
  else if version.ge .VER_84 then Creatable.write84 H rec self version
  else Creatable.write78 H rec self version

/-- `BuildingAnnex.to_bytes` — `/repo/src/genieutils/unit.py:893-898`. -/
def BuildingAnnex.write (H : Heap) (rec : W.Rec) (self : HVal) (version : Version) : Py Bytes :=
  W.pack BUILDING_ANNEX_FORMAT [
      W.arg (W.attr H self (lit "unit_id")),
      W.arg (W.attr H self (lit "misplacement_x")),
      W.arg (W.attr H self (lit "misplacement_y"))]

/-- `Building.to_bytes` — `/repo/src/genieutils/unit.py:1010-1040`. -/
def Building.write (H : Heap) (rec : W.Rec) (self : HVal) (version : Version) : Py Bytes :=
  joinB [
    W.pack BUILDING_ANNEX_FORMAT_1 [
      W.arg (W.attr H self (lit "construction_graphic_id")),
      W.arg (W.attr H self (lit "snow_graphic_id")),
      W.arg (W.attr H self (lit "destruction_graphic_id")),
      W.arg (W.attr H self (lit "destruction_rubble_graphic_id")),
      W.arg (W.attr H self (lit "researching_graphic")),
      W.arg (W.attr H self (lit "research_completed_graphic")),
      W.arg (W.attr H self (lit "adjacent_mode")),
      W.arg (W.attr H self (lit "graphics_angle")),
      W.arg (W.attr H self (lit "disappears_when_built")),
      W.arg (W.attr H self (lit "stack_unit_id")),
      W.arg (W.attr H self (lit "foundation_terrain_id")),
      W.arg (W.attr H self (lit "old_overlap_id")),
      W.arg (W.attr H self (lit "tech_id")),
      W.arg (W.attr H self (lit "can_burn"))],
    W.classArray H rec (W.attr H self (lit "annexes")) version,
    W.pack BUILDING_ANNEX_FORMAT_2 [
      W.arg (W.attr H self (lit "head_unit")),
      W.arg (W.attr H self (lit "transform_unit")),
      W.arg (W.attr H self (lit "transform_sound")),
      W.arg (W.attr H self (lit "construction_sound")),
      W.arg (W.attr H self (lit "wwise_transform_sound_id")),
      W.arg (W.attr H self (lit "wwise_construction_sound_id")),
      W.arg (W.attr H self (lit "garrison_type")),
      W.arg (W.attr H self (lit "garrison_heal_rate")),
      W.arg (W.attr H self (lit "garrison_repair_rate")),
      W.arg (W.attr H self (lit "pile_unit")),
      W.iter H (W.attr H self (lit "looting_table"))]]

/-- `Unit.to_bytes_84` — `/repo/src/genieutils/unit.py:1527-1635`. -/
def Unit.write84 (H : Heap) (rec : W.Rec) (self : HVal) (version : Version) : Py Bytes := do
  let speed ← W.when [W.neInt (W.attr H self (lit "type")) UnitType.AoeTrees, W.geInt (W.attr H self (lit "type")) UnitType.Flag] (W.ifNotNone (W.attr H self (lit "speed")) (W.float (W.attr H self (lit "speed"))))
  let dead_fish ← W.when [W.neInt (W.attr H self (lit "type")) UnitType.AoeTrees, W.geInt (W.attr H self (lit "type")) UnitType.Flag, W.geInt (W.attr H self (lit "type")) UnitType.DeadFish] (W.ifNotNone (W.attr H self (lit "dead_fish")) (W.cls rec (W.attr H self (lit "dead_fish")) version))
  let bird ← W.when [W.neInt (W.attr H self (lit "type")) UnitType.AoeTrees, W.geInt (W.attr H self (lit "type")) UnitType.Flag, W.geInt (W.attr H self (lit "type")) UnitType.Bird] (W.ifNotNone (W.attr H self (lit "bird")) (W.cls rec (W.attr H self (lit "bird")) version))
  let type_50 ← W.when [W.neInt (W.attr H self (lit "type")) UnitType.AoeTrees, W.geInt (W.attr H self (lit "type")) UnitType.Flag, W.geInt (W.attr H self (lit "type")) UnitType.Combatant] (W.ifNotNone (W.attr H self (lit "type_50")) (W.cls rec (W.attr H self (lit "type_50")) version))
  let projectile ← W.when [W.neInt (W.attr H self (lit "type")) UnitType.AoeTrees, W.geInt (W.attr H self (lit "type")) UnitType.Flag, W.eqInt (W.attr H self (lit "type")) UnitType.Projectile] (W.ifNotNone (W.attr H self (lit "projectile")) (W.cls rec (W.attr H self (lit "projectile")) version))
  let creatable ← W.when [W.neInt (W.attr H self (lit "type")) UnitType.AoeTrees, W.geInt (W.attr H self (lit "type")) UnitType.Flag, W.geInt (W.attr H self (lit "type")) UnitType.Creatable] (W.ifNotNone (W.attr H self (lit "creatable")) (W.cls rec (W.attr H self (lit "creatable")) version))
  let building ← W.when [W.neInt (W.attr H self (lit "type")) UnitType.AoeTrees, W.geInt (W.attr H self (lit "type")) UnitType.Flag, W.eqInt (W.attr H self (lit "type")) UnitType.Building] (W.ifNotNone (W.attr H self (lit "building")) (W.cls rec (W.attr H self (lit "building")) version))
  joinB [
    W.pack UNIT_FORMAT [
      W.arg (W.attr H self (lit "type")),
      W.arg (W.attr H self (lit "id")),
      W.arg (W.attr H self (lit "language_dll_name")),
      W.arg (W.attr H self (lit "language_dll_creation")),
      W.arg (W.attr H self (lit "class_")),
      W.iter H (W.attr H self (lit "standing_graphic")),
      W.arg (W.attr H self (lit "dying_graphic")),
      W.arg (W.attr H self (lit "undead_graphic")),
      W.arg (W.attr H self (lit "undead_mode")),
      W.arg (W.attr H self (lit "hit_points")),
      W.arg (W.attr H self (lit "line_of_sight")),
      W.arg (W.attr H self (lit "garrison_capacity")),
      W.arg (W.attr H self (lit "collision_size_x")),
      W.arg (W.attr H self (lit "collision_size_y")),
      W.arg (W.attr H self (lit "collision_size_z")),
      W.arg (W.attr H self (lit "train_sound")),
      W.arg (W.attr H self (lit "damage_sound")),
      W.arg (W.attr H self (lit "dead_unit_id")),
      W.arg (W.attr H self (lit "blood_unit_id")),
      W.arg (W.attr H self (lit "sort_number")),
      W.arg (W.attr H self (lit "can_be_built_on")),
      W.arg (W.attr H self (lit "icon_id")),
      W.arg (W.attr H self (lit "hide_in_editor")),
      W.arg (W.attr H self (lit "old_portrait_pict")),
      W.arg (W.attr H self (lit "enabled")),
      W.arg (W.attr H self (lit "disabled")),
      W.iter H (W.attr H self (lit "placement_side_terrain")),
      W.iter H (W.attr H self (lit "placement_terrain")),
      W.iter H (W.attr H self (lit "clearance_size")),
      W.arg (W.attr H self (lit "hill_mode")),
      W.arg (W.attr H self (lit "fog_visibility")),
      W.arg (W.attr H self (lit "terrain_restriction")),
      W.arg (W.attr H self (lit "fly_mode")),
      W.arg (W.attr H self (lit "resource_capacity")),
      W.arg (W.attr H self (lit "resource_decay")),
      W.arg (W.attr H self (lit "blast_defense_level")),
      W.arg (W.attr H self (lit "combat_level")),
      W.arg (W.attr H self (lit "interaction_mode")),
      W.arg (W.attr H self (lit "minimap_mode")),
      W.arg (W.attr H self (lit "interface_kind")),
      W.arg (W.attr H self (lit "multiple_attribute_mode")),
      W.arg (W.attr H self (lit "minimap_color")),
      W.arg (W.attr H self (lit "language_dll_help")),
      W.arg (W.attr H self (lit "language_dll_hotkey_text")),
      W.arg (W.attr H self (lit "hot_key")),
      W.arg (W.attr H self (lit "recyclable")),
      W.arg (W.attr H self (lit "enable_auto_gather")),
      W.arg (W.attr H self (lit "create_doppelganger_on_death")),
      W.arg (W.attr H self (lit "resource_gather_group")),
      W.arg (W.attr H self (lit "occlusion_mode")),
      W.arg (W.attr H self (lit "obstruction_type")),
      W.arg (W.attr H self (lit "obstruction_class")),
      W.arg (W.attr H self (lit "trait")),
      W.arg (W.attr H self (lit "civilization")),
      W.arg (W.attr H self (lit "nothing")),
      W.arg (W.attr H self (lit "selection_effect")),
      W.arg (W.attr H self (lit "editor_selection_colour")),
      W.arg (W.attr H self (lit "outline_size_x")),
      W.arg (W.attr H self (lit "outline_size_y")),
      W.arg (W.attr H self (lit "outline_size_z")),
      W.arg (W.attr H self (lit "scenario_triggers_1")),
      W.arg (W.attr H self (lit "scenario_triggers_2"))],
    joinB [
      W.classArray H rec (W.attr H self (lit "resource_storages")) version,
      W.int8 H (W.nat (W.len H (W.attr H self (lit "damage_graphics")))),
      W.classArray H rec (W.attr H self (lit "damage_graphics")) version,
      W.int16 H (W.attr H self (lit "selection_sound")),
      W.int16 H (W.attr H self (lit "dying_sound")),
      W.int32 H (W.attr H self (lit "wwise_train_sound_id")),
      W.int32 H (W.attr H self (lit "wwise_damage_sound_id")),
      W.int32 H (W.attr H self (lit "wwise_selection_sound_id")),
      W.int32 H (W.attr H self (lit "wwise_dying_sound_id")),
      W.int8 H (W.attr H self (lit "old_attack_reaction")),
      W.int8 H (W.attr H self (lit "convert_terrain")),
      W.debugString (W.attr H self (lit "name")),
      W.int16 H (W.attr H self (lit "copy_id")),
      W.int16 H (W.attr H self (lit "base_id")),
      .ok speed,
      .ok dead_fish,
      .ok bird,
      .ok type_50,
      .ok projectile,
      .ok creatable,
      .ok building]]

/-- `Unit.to_bytes_88` — `/repo/src/genieutils/unit.py:1637-1744`. -/
def Unit.write88 (H : Heap) (rec : W.Rec) (self : HVal) (version : Version) : Py Bytes := do
  let speed ← W.when [W.neInt (W.attr H self (lit "type")) UnitType.AoeTrees, W.geInt (W.attr H self (lit "type")) UnitType.Flag] (W.ifNotNone (W.attr H self (lit "speed")) (W.float (W.attr H self (lit "speed"))))
  let dead_fish ← W.when [W.neInt (W.attr H self (lit "type")) UnitType.AoeTrees, W.geInt (W.attr H self (lit "type")) UnitType.Flag, W.geInt (W.attr H self (lit "type")) UnitType.DeadFish] (W.ifNotNone (W.attr H self (lit "dead_fish")) (W.cls rec (W.attr H self (lit "dead_fish")) version))
  let bird ← W.when [W.neInt (W.attr H self (lit "type")) UnitType.AoeTrees, W.geInt (W.attr H self (lit "type")) UnitType.Flag, W.geInt (W.attr H self (lit "type")) UnitType.Bird] (W.ifNotNone (W.attr H self (lit "bird")) (W.cls rec (W.attr H self (lit "bird")) version))
  let type_50 ← W.when [W.neInt (W.attr H self (lit "type")) UnitType.AoeTrees, W.geInt (W.attr H self (lit "type")) UnitType.Flag, W.geInt (W.attr H self (lit "type")) UnitType.Combatant] (W.ifNotNone (W.attr H self (lit "type_50")) (W.cls rec (W.attr H self (lit "type_50")) version))
  let projectile ← W.when [W.neInt (W.attr H self (lit "type")) UnitType.AoeTrees, W.geInt (W.attr H self (lit "type")) UnitType.Flag, W.eqInt (W.attr H self (lit "type")) UnitType.Projectile] (W.ifNotNone (W.attr H self (lit "projectile")) (W.cls rec (W.attr H self (lit "projectile")) version))
  let creatable ← W.when [W.neInt (W.attr H self (lit "type")) UnitType.AoeTrees, W.geInt (W.attr H self (lit "type")) UnitType.Flag, W.geInt (W.attr H self (lit "type")) UnitType.Creatable] (W.ifNotNone (W.attr H self (lit "creatable")) (W.cls rec (W.attr H self (lit "creatable")) version))
  let building ← W.when [W.neInt (W.attr H self (lit "type")) UnitType.AoeTrees, W.geInt (W.attr H self (lit "type")) UnitType.Flag, W.eqInt (W.attr H self (lit "type")) UnitType.Building] (W.ifNotNone (W.attr H self (lit "building")) (W.cls rec (W.attr H self (lit "building")) version))
  joinB [
    W.pack UNIT_FORMAT_88 [
      W.arg (W.attr H self (lit "type")),
      W.arg (W.attr H self (lit "id")),
      W.arg (W.attr H self (lit "language_dll_name")),
      W.arg (W.attr H self (lit "language_dll_creation")),
      W.arg (W.attr H self (lit "class_")),
      W.iter H (W.attr H self (lit "standing_graphic")),
      W.arg (W.attr H self (lit "dying_graphic")),
      W.arg (W.attr H self (lit "undead_graphic")),
      W.arg (W.attr H self (lit "undead_mode")),
      W.arg (W.attr H self (lit "hit_points")),
      W.arg (W.attr H self (lit "line_of_sight")),
      W.arg (W.attr H self (lit "garrison_capacity")),
      W.arg (W.attr H self (lit "collision_size_x")),
      W.arg (W.attr H self (lit "collision_size_y")),
      W.arg (W.attr H self (lit "collision_size_z")),
      W.arg (W.attr H self (lit "train_sound")),
      W.arg (W.attr H self (lit "damage_sound")),
      W.arg (W.attr H self (lit "dead_unit_id")),
      W.arg (W.attr H self (lit "blood_unit_id")),
      W.arg (W.attr H self (lit "sort_number")),
      W.arg (W.attr H self (lit "can_be_built_on")),
      W.arg (W.attr H self (lit "icon_id")),
      W.arg (W.attr H self (lit "hide_in_editor")),
      W.arg (W.attr H self (lit "old_portrait_pict")),
      W.arg (W.attr H self (lit "enabled")),
      W.arg (W.attr H self (lit "disabled")),
      W.iter H (W.attr H self (lit "placement_side_terrain")),
      W.iter H (W.attr H self (lit "placement_terrain")),
      W.iter H (W.attr H self (lit "clearance_size")),
      W.arg (W.attr H self (lit "hill_mode")),
      W.arg (W.attr H self (lit "fog_visibility")),
      W.arg (W.attr H self (lit "terrain_restriction")),
      W.arg (W.attr H self (lit "fly_mode")),
      W.arg (W.attr H self (lit "resource_capacity")),
      W.arg (W.attr H self (lit "resource_decay")),
      W.arg (W.attr H self (lit "blast_defense_level")),
      W.arg (W.attr H self (lit "combat_level")),
      W.arg (W.attr H self (lit "interaction_mode")),
      W.arg (W.attr H self (lit "minimap_mode")),
      W.arg (W.attr H self (lit "interface_kind")),
      W.arg (W.attr H self (lit "multiple_attribute_mode")),
      W.arg (W.attr H self (lit "minimap_color")),
      W.arg (W.attr H self (lit "language_dll_help")),
      W.arg (W.attr H self (lit "language_dll_hotkey_text")),
      W.arg (W.attr H self (lit "recyclable")),
      W.arg (W.attr H self (lit "enable_auto_gather")),
      W.arg (W.attr H self (lit "create_doppelganger_on_death")),
      W.arg (W.attr H self (lit "resource_gather_group")),
      W.arg (W.attr H self (lit "occlusion_mode")),
      W.arg (W.attr H self (lit "obstruction_type")),
      W.arg (W.attr H self (lit "obstruction_class")),
      W.arg (W.attr H self (lit "trait")),
      W.arg (W.attr H self (lit "civilization")),
      W.arg (W.attr H self (lit "nothing")),
      W.arg (W.attr H self (lit "selection_effect")),
      W.arg (W.attr H self (lit "editor_selection_colour")),
      W.arg (W.attr H self (lit "outline_size_x")),
      W.arg (W.attr H self (lit "outline_size_y")),
      W.arg (W.attr H self (lit "outline_size_z")),
      W.arg (W.attr H self (lit "scenario_triggers_1")),
      W.arg (W.attr H self (lit "scenario_triggers_2"))],
    joinB [
      W.classArray H rec (W.attr H self (lit "resource_storages")) version,
      W.int8 H (W.nat (W.len H (W.attr H self (lit "damage_graphics")))),
      W.classArray H rec (W.attr H self (lit "damage_graphics")) version,
      W.int16 H (W.attr H self (lit "selection_sound")),
      W.int16 H (W.attr H self (lit "dying_sound")),
      W.int32 H (W.attr H self (lit "wwise_train_sound_id")),
      W.int32 H (W.attr H self (lit "wwise_damage_sound_id")),
      W.int32 H (W.attr H self (lit "wwise_selection_sound_id")),
      W.int32 H (W.attr H self (lit "wwise_dying_sound_id")),
      W.int8 H (W.attr H self (lit "old_attack_reaction")),
      W.int8 H (W.attr H self (lit "convert_terrain")),
      W.debugString (W.attr H self (lit "name")),
      W.int16 H (W.attr H self (lit "copy_id")),
      W.int16 H (W.attr H self (lit "base_id")),
      .ok speed,
      .ok dead_fish,
      .ok bird,
      .ok type_50,
      .ok projectile,
      .ok creatable,
      .ok building]]

/-- `Unit.to_bytes` — `/repo/src/genieutils/unit.py:1522-1525`. -/
def Unit.write (H : Heap) (rec : W.Rec) (self : HVal) (version : Version) : Py Bytes :=
  if version.ge .VER_88 then Unit.write88 H rec self version
  else Unit.write84 H rec self version

/-- `UnitHeaders.to_bytes` — `/repo/src/genieutils/unitheaders.py:25-30`. -/
def UnitHeaders.write (H : Heap) (rec : W.Rec) (self : HVal) (version : Version) : Py Bytes :=
  joinB [
    W.int8 H (W.attr H self (lit "exists")),
    W.when [(W.truthy H) <$> (W.attr H self (lit "exists"))] (W.ifNotNone (W.attr H self (lit "task_list")) (W.int16 H (W.nat (W.len H (W.attr H self (lit "task_list")))))),
    W.when [(W.truthy H) <$> (W.attr H self (lit "exists"))] (W.ifNotNone (W.attr H self (lit "task_list")) (W.classArray H rec (W.attr H self (lit "task_list")) version))]

/-- `Civ.to_bytes` — `/repo/src/genieutils/civ.py:44-56`. -/
def Civ.write (H : Heap) (rec : W.Rec) (self : HVal) (version : Version) : Py Bytes :=
  joinB [
    W.int8 H (W.attr H self (lit "player_type")),
    W.debugString (W.attr H self (lit "name")),
    W.int16 H (W.nat (W.len H (W.attr H self (lit "resources")))),
    W.int16 H (W.attr H self (lit "tech_tree_id")),
    W.int16 H (W.attr H self (lit "team_bonus_id")),
    W.floatArray H (W.attr H self (lit "resources")),
    W.int8 H (W.attr H self (lit "icon_set")),
    W.int16 H (W.nat (W.len H (W.attr H self (lit "units")))),
    W.pointers H (W.attr H self (lit "units")),
    W.classArray H rec (W.attr H self (lit "units")) version]

/-- `DatFile.to_bytes` — `/repo/src/genieutils/datfile.py:120-160`.  The parameter `version` is overwritten by the first statement. -/
def DatFile.write (H : Heap) (rec : W.Rec) (self : HVal) (_version : Version) : Py Bytes := do
  let version ← W.version (W.attr H self (lit "version"))
  let terrain_restrictions_size ← W.len H (W.attr H self (lit "terrain_restrictions"))
  let n ← W.len H (W.attr H self (lit "float_ptr_terrain_tables"))
  let m ← W.len H (W.attr H self (lit "terrain_pass_graphic_pointers"))
  if ¬ (n = m ∧ m = terrain_restrictions_size) then .error .assertionError
  else do
  let restrictions ← W.attr H self (lit "terrain_restrictions")
  let terrains_used ← if W.truthy H restrictions then W.len H (W.attrOf H (W.item H (W.attr H self (lit "terrain_restrictions")) 0) (lit "passable_buildable_dmg_multiplier")) else .ok 0
  joinB [
    W.string 8 (W.attr H self (lit "version")),
    W.int16 H (.ok (.int terrain_restrictions_size)),
    W.int16 H (.ok (.int terrains_used)),
    W.int32Array H (W.attr H self (lit "float_ptr_terrain_tables")),
    W.int32Array H (W.attr H self (lit "terrain_pass_graphic_pointers")),
    W.classArray H rec (W.attr H self (lit "terrain_restrictions")) version,
    W.int16 H (W.nat (W.len H (W.attr H self (lit "player_colours")))),
    W.classArray H rec (W.attr H self (lit "player_colours")) version,
    W.int16 H (W.nat (W.len H (W.attr H self (lit "sounds")))),
    W.classArray H rec (W.attr H self (lit "sounds")) version,
    W.int16 H (W.nat (W.len H (W.attr H self (lit "graphics")))),
    W.pointers H (W.attr H self (lit "graphics")),
    W.classArray H rec (W.attr H self (lit "graphics")) version,
    W.cls rec (W.attr H self (lit "terrain_block")) version,
    W.cls rec (W.attr H self (lit "random_maps")) version,
    W.int32 H (W.nat (W.len H (W.attr H self (lit "effects")))),
    W.classArray H rec (W.attr H self (lit "effects")) version,
    W.int32 H (W.nat (W.len H (W.attr H self (lit "unit_headers")))),
    W.classArray H rec (W.attr H self (lit "unit_headers")) version,
    W.int16 H (W.nat (W.len H (W.attr H self (lit "civs")))),
    W.classArray H rec (W.attr H self (lit "civs")) version,
    W.int16 H (W.nat (W.len H (W.attr H self (lit "techs")))),
    W.classArray H rec (W.attr H self (lit "techs")) version,
    W.int32 H (W.attr H self (lit "time_slice")),
    W.int32 H (W.attr H self (lit "unit_kill_rate")),
    W.int32 H (W.attr H self (lit "unit_kill_total")),
    W.int32 H (W.attr H self (lit "unit_hit_point_rate")),
    W.int32 H (W.attr H self (lit "unit_hit_point_total")),
    W.int32 H (W.attr H self (lit "razing_kill_rate")),
    W.int32 H (W.attr H self (lit "razing_kill_total")),
    W.cls rec (W.attr H self (lit "tech_tree")) version]

namespace W

/-- The `to_bytes` methods, by the name of the class. -/
def methods : List (PyStr × (Heap → Rec → HVal → Version → Py Bytes)) := [
  (lit "EffectCommand", EffectCommand.write),
  (lit "Effect", Effect.write),
  (lit "SoundItem", SoundItem.write),
  (lit "Sound", Sound.write),
  (lit "PlayerColour", PlayerColour.write),
  (lit "GraphicDelta", GraphicDelta.write),
  (lit "GraphicAngleSound", GraphicAngleSound.write),
  (lit "Graphic", Graphic.write),
  (lit "TerrainPassGraphic", TerrainPassGraphic.write),
  (lit "TerrainRestriction", TerrainRestriction.write),
  (lit "FrameData", FrameData.write),
  (lit "Terrain", Terrain.write),
  (lit "TileSize", TileSize.write),
  (lit "TerrainBlock", TerrainBlock.write),
  (lit "MapUnit", MapUnit.write),
  (lit "MapTerrain", MapTerrain.write),
  (lit "MapLand", MapLand.write),
  (lit "MapElevation", MapElevation.write),
  (lit "MapInfo", MapInfo.write),
  (lit "RandomMaps", RandomMaps.write),
  (lit "ResearchResourceCost", ResearchResourceCost.write),
  (lit "ResearchLocation", ResearchLocation.write),
  (lit "Tech", Tech.write),
  (lit "Common", Common.write),
  (lit "TechTreeAge", TechTreeAge.write),
  (lit "BuildingConnection", BuildingConnection.write),
  (lit "UnitConnection", UnitConnection.write),
  (lit "ResearchConnection", ResearchConnection.write),
  (lit "TechTree", TechTree.write),
  (lit "Task", Task.write),
  (lit "ResourceStorage", ResourceStorage.write),
  (lit "DamageGraphic", DamageGraphic.write),
  (lit "DeadFish", DeadFish.write),
  (lit "Bird", Bird.write),
  (lit "AttackOrArmor", AttackOrArmor.write),
  (lit "Type50", Type50.write),
  (lit "Projectile", Projectile.write),
  (lit "ResourceCost", ResourceCost.write),
  (lit "TrainLocation", TrainLocation.write),
  (lit "Creatable", Creatable.write),
  (lit "BuildingAnnex", BuildingAnnex.write),
  (lit "Building", Building.write),
  (lit "Unit", Unit.write),
  (lit "UnitHeaders", UnitHeaders.write),
  (lit "Civ", Civ.write),
  (lit "DatFile", DatFile.write)]

/-- The method of a class. -/
def method (name : PyStr) : List (PyStr × (Heap → Rec → HVal → Version → Py Bytes)) → Option (Heap → Rec → HVal → Version → Py Bytes)
  | [] => none
  | (n, m) :: rest => if n = name then some m else method name rest

/-- `o.to_bytes(version)`, with room for `depth` nested calls of that kind: `RecursionError` when they are used up.  An `int` has a method
of that name too, which does not take a version (`TypeError`); other objects have none. -/
def toBytes (H : Heap) : Nat → Rec
  | 0, _, _ => .error .recursionError
  | depth + 1, o, version =>
    match o, cell H o with
    | .int _, _ => .error .typeError
    | _, some (.record name _) =>
      match method name methods with
      | some m => m H (toBytes H depth) o version
      | none => .error .attributeError
    | _, _ => .error .attributeError

end W

end Genie
