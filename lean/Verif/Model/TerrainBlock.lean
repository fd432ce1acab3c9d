import Verif.Model.Common
/-!
# `/repo/src/genieutils/terrainblock.py`

Generated by `tools/gen_model.py` from the source text (reader and writer transcribed
independently, statement by statement).
-/

set_option linter.unusedVariables false

namespace Genie

/-- `class FrameData` — `/repo/src/genieutils/terrainblock.py:7-11`. -/
structure FrameData where
  frame_count : Int
  angle_count : Int
  shape_id : Int
deriving DecidableEq, Inhabited

/-- `FrameData.from_bytes` — `/repo/src/genieutils/terrainblock.py:14-19`. -/
def FrameData.fromBytes : Reader FrameData := do
  let frame_count ← readInt16
  let angle_count ← readInt16
  let shape_id ← readInt16
  return {
    frame_count := frame_count,
    angle_count := angle_count,
    shape_id := shape_id }

/-- `FrameData.to_bytes` — `/repo/src/genieutils/terrainblock.py:21-26`. -/
def FrameData.toBytes (version : Version) (self : FrameData) : Py Bytes :=
  joinB [
    writeInt16 self.frame_count,
    writeInt16 self.angle_count,
    writeInt16 self.shape_id]

/-- `class Terrain` — `/repo/src/genieutils/terrainblock.py:29-68`. -/
structure Terrain where
  enabled : Int
  random : Int
  is_water : Int
  hide_in_editor : Int
  string_id : Int
  name : PyStr
  name_2 : PyStr
  slp : Int
  shape_ptr : Int
  sound_id : Int
  wwise_sound_id : Int
  wwise_sound_stop_id : Int
  blend_priority : Int
  blend_type : Int
  overlay_mask_name : PyStr
  colors : List Int
  cliff_colors : List Int
  passable_terrain : Int
  impassable_terrain : Int
  is_animated : Int
  animation_frames : Int
  pause_frames : Int
  interval : PyFloat
  pause_between_loops : PyFloat
  frame : Int
  draw_frame : Int
  animate_last : PyFloat
  frame_changed : Int
  drawn : Int
  frame_data : List FrameData
  terrain_to_draw : Int
  terrain_dimensions : List Int
  terrain_unit_masked_density : List Int
  terrain_unit_id : List Int
  terrain_unit_density : List Int
  terrain_unit_centering : List Int
  number_of_terrain_units_used : Int
  phantom : Int
deriving DecidableEq, Inhabited

/-- `Terrain.from_bytes` — `/repo/src/genieutils/terrainblock.py:71-111`. -/
def Terrain.fromBytes : Reader Terrain := do
  let enabled ← readInt8
  let random ← readInt8
  let is_water ← readInt8
  let hide_in_editor ← readInt8
  let string_id ← readInt32
  let name ← readDebugString
  let name_2 ← readDebugString
  let slp ← readInt32
  let shape_ptr ← readInt32
  let sound_id ← readInt32
  let wwise_sound_id ← readInt32 (signed := false)
  let wwise_sound_stop_id ← readInt32 (signed := false)
  let blend_priority ← readInt32
  let blend_type ← readInt32
  let overlay_mask_name ← readDebugString
  let colors ← readInt8Array3
  let cliff_colors ← readInt8Array2
  let passable_terrain ← readInt8
  let impassable_terrain ← readInt8
  let is_animated ← readInt8
  let animation_frames ← readInt16
  let pause_frames ← readInt16
  let interval ← readFloat
  let pause_between_loops ← readFloat
  let frame ← readInt16
  let draw_frame ← readInt16
  let animate_last ← readFloat
  let frame_changed ← readInt8
  let drawn ← readInt8
  let frame_data ← readClassArray FrameData.fromBytes TILE_TYPE_COUNT
  let terrain_to_draw ← readInt16
  let terrain_dimensions ← readInt16Array2
  let terrain_unit_masked_density ← readInt16Array TERRAIN_UNITS_SIZE
  let terrain_unit_id ← readInt16Array TERRAIN_UNITS_SIZE
  let terrain_unit_density ← readInt16Array TERRAIN_UNITS_SIZE
  let terrain_unit_centering ← readInt8Array TERRAIN_UNITS_SIZE
  let number_of_terrain_units_used ← readInt16
  let phantom ← readInt16
  return {
    enabled := enabled,
    random := random,
    is_water := is_water,
    hide_in_editor := hide_in_editor,
    string_id := string_id,
    name := name,
    name_2 := name_2,
    slp := slp,
    shape_ptr := shape_ptr,
    sound_id := sound_id,
    wwise_sound_id := wwise_sound_id,
    wwise_sound_stop_id := wwise_sound_stop_id,
    blend_priority := blend_priority,
    blend_type := blend_type,
    overlay_mask_name := overlay_mask_name,
    colors := colors,
    cliff_colors := cliff_colors,
    passable_terrain := passable_terrain,
    impassable_terrain := impassable_terrain,
    is_animated := is_animated,
    animation_frames := animation_frames,
    pause_frames := pause_frames,
    interval := interval,
    pause_between_loops := pause_between_loops,
    frame := frame,
    draw_frame := draw_frame,
    animate_last := animate_last,
    frame_changed := frame_changed,
    drawn := drawn,
    frame_data := frame_data,
    terrain_to_draw := terrain_to_draw,
    terrain_dimensions := terrain_dimensions,
    terrain_unit_masked_density := terrain_unit_masked_density,
    terrain_unit_id := terrain_unit_id,
    terrain_unit_density := terrain_unit_density,
    terrain_unit_centering := terrain_unit_centering,
    number_of_terrain_units_used := number_of_terrain_units_used,
    phantom := phantom }

/-- `Terrain.to_bytes` — `/repo/src/genieutils/terrainblock.py:113-153`. -/
def Terrain.toBytes (version : Version) (self : Terrain) : Py Bytes :=
  joinB [
    writeInt8 self.enabled,
    writeInt8 self.random,
    writeInt8 self.is_water,
    writeInt8 self.hide_in_editor,
    writeInt32 self.string_id,
    writeDebugString self.name,
    writeDebugString self.name_2,
    writeInt32 self.slp,
    writeInt32 self.shape_ptr,
    writeInt32 self.sound_id,
    writeInt32 self.wwise_sound_id (signed := false),
    writeInt32 self.wwise_sound_stop_id (signed := false),
    writeInt32 self.blend_priority,
    writeInt32 self.blend_type,
    writeDebugString self.overlay_mask_name,
    writeInt8Array self.colors,
    writeInt8Array self.cliff_colors,
    writeInt8 self.passable_terrain,
    writeInt8 self.impassable_terrain,
    writeInt8 self.is_animated,
    writeInt16 self.animation_frames,
    writeInt16 self.pause_frames,
    writeFloat self.interval,
    writeFloat self.pause_between_loops,
    writeInt16 self.frame,
    writeInt16 self.draw_frame,
    writeFloat self.animate_last,
    writeInt8 self.frame_changed,
    writeInt8 self.drawn,
    writeClassArray FrameData.toBytes self.frame_data version,
    writeInt16 self.terrain_to_draw,
    writeInt16Array self.terrain_dimensions,
    writeInt16Array self.terrain_unit_masked_density,
    writeInt16Array self.terrain_unit_id,
    writeInt16Array self.terrain_unit_density,
    writeInt8Array self.terrain_unit_centering,
    writeInt16 self.number_of_terrain_units_used,
    writeInt16 self.phantom]

/-- `class TileSize` — `/repo/src/genieutils/terrainblock.py:156-160`. -/
structure TileSize where
  width : Int
  height : Int
  delta_y : Int
deriving DecidableEq, Inhabited

/-- `TileSize.from_bytes` — `/repo/src/genieutils/terrainblock.py:163-168`. -/
def TileSize.fromBytes : Reader TileSize := do
  let width ← readInt16
  let height ← readInt16
  let delta_y ← readInt16
  return {
    width := width,
    height := height,
    delta_y := delta_y }

/-- `TileSize.to_bytes` — `/repo/src/genieutils/terrainblock.py:170-175`. -/
def TileSize.toBytes (version : Version) (self : TileSize) : Py Bytes :=
  joinB [
    writeInt16 self.width,
    writeInt16 self.height,
    writeInt16 self.delta_y]

/-- `class TerrainBlock` — `/repo/src/genieutils/terrainblock.py:178-213`. -/
structure TerrainBlock where
  virtual_function_ptr : Int
  map_pointer : Int
  map_width : Int
  map_height : Int
  world_width : Int
  world_height : Int
  tile_sizes : List TileSize
  padding_ts : Int
  terrains : List Terrain
  map_min_x : PyFloat
  map_min_y : PyFloat
  map_max_x : PyFloat
  map_max_y : PyFloat
  map_max_x_plus_1 : PyFloat
  map_max_y_plus_1 : PyFloat
  terrains_used_2 : Int
  borders_used : Int
  max_terrain : Int
  tile_width : Int
  tile_height : Int
  tile_half_height : Int
  tile_half_width : Int
  elev_height : Int
  cur_row : Int
  cur_col : Int
  block_beg_row : Int
  block_end_row : Int
  block_beg_col : Int
  block_end_col : Int
  search_map_ptr : Int
  search_map_rows_ptr : Int
  any_frame_change : Int
  map_visible_flag : Int
  fog_flag : Int
deriving DecidableEq, Inhabited

/-- `TerrainBlock.from_bytes` — `/repo/src/genieutils/terrainblock.py:216-252`. -/
def TerrainBlock.fromBytes : Reader TerrainBlock := do
  let virtual_function_ptr ← readInt32 (signed := false)
  let map_pointer ← readInt32 (signed := false)
  let map_width ← readInt32
  let map_height ← readInt32
  let world_width ← readInt32
  let world_height ← readInt32
  let tile_sizes ← readClassArray TileSize.fromBytes TILE_TYPE_COUNT
  let padding_ts ← readInt16
  let terrains ← readClassArray Terrain.fromBytes TERRAIN_COUNT
  let map_min_x ← readFloat
  let map_min_y ← readFloat
  let map_max_x ← readFloat
  let map_max_y ← readFloat
  let map_max_x_plus_1 ← readFloat
  let map_max_y_plus_1 ← readFloat
  let terrains_used_2 ← readInt16
  let borders_used ← readInt16
  let max_terrain ← readInt16
  let tile_width ← readInt16
  let tile_height ← readInt16
  let tile_half_height ← readInt16
  let tile_half_width ← readInt16
  let elev_height ← readInt16
  let cur_row ← readInt16
  let cur_col ← readInt16
  let block_beg_row ← readInt16
  let block_end_row ← readInt16
  let block_beg_col ← readInt16
  let block_end_col ← readInt16
  let search_map_ptr ← readInt32 (signed := false)
  let search_map_rows_ptr ← readInt32 (signed := false)
  let any_frame_change ← readInt8
  let map_visible_flag ← readInt8
  let fog_flag ← readInt8
  return {
    virtual_function_ptr := virtual_function_ptr,
    map_pointer := map_pointer,
    map_width := map_width,
    map_height := map_height,
    world_width := world_width,
    world_height := world_height,
    tile_sizes := tile_sizes,
    padding_ts := padding_ts,
    terrains := terrains,
    map_min_x := map_min_x,
    map_min_y := map_min_y,
    map_max_x := map_max_x,
    map_max_y := map_max_y,
    map_max_x_plus_1 := map_max_x_plus_1,
    map_max_y_plus_1 := map_max_y_plus_1,
    terrains_used_2 := terrains_used_2,
    borders_used := borders_used,
    max_terrain := max_terrain,
    tile_width := tile_width,
    tile_height := tile_height,
    tile_half_height := tile_half_height,
    tile_half_width := tile_half_width,
    elev_height := elev_height,
    cur_row := cur_row,
    cur_col := cur_col,
    block_beg_row := block_beg_row,
    block_end_row := block_end_row,
    block_beg_col := block_beg_col,
    block_end_col := block_end_col,
    search_map_ptr := search_map_ptr,
    search_map_rows_ptr := search_map_rows_ptr,
    any_frame_change := any_frame_change,
    map_visible_flag := map_visible_flag,
    fog_flag := fog_flag }

/-- `TerrainBlock.to_bytes` — `/repo/src/genieutils/terrainblock.py:254-290`. -/
def TerrainBlock.toBytes (version : Version) (self : TerrainBlock) : Py Bytes :=
  joinB [
    writeInt32 self.virtual_function_ptr (signed := false),
    writeInt32 self.map_pointer (signed := false),
    writeInt32 self.map_width,
    writeInt32 self.map_height,
    writeInt32 self.world_width,
    writeInt32 self.world_height,
    writeClassArray TileSize.toBytes self.tile_sizes version,
    writeInt16 self.padding_ts,
    writeClassArray Terrain.toBytes self.terrains version,
    writeFloat self.map_min_x,
    writeFloat self.map_min_y,
    writeFloat self.map_max_x,
    writeFloat self.map_max_y,
    writeFloat self.map_max_x_plus_1,
    writeFloat self.map_max_y_plus_1,
    writeInt16 self.terrains_used_2,
    writeInt16 self.borders_used,
    writeInt16 self.max_terrain,
    writeInt16 self.tile_width,
    writeInt16 self.tile_height,
    writeInt16 self.tile_half_height,
    writeInt16 self.tile_half_width,
    writeInt16 self.elev_height,
    writeInt16 self.cur_row,
    writeInt16 self.cur_col,
    writeInt16 self.block_beg_row,
    writeInt16 self.block_end_row,
    writeInt16 self.block_beg_col,
    writeInt16 self.block_end_col,
    writeInt32 self.search_map_ptr (signed := false),
    writeInt32 self.search_map_rows_ptr (signed := false),
    writeInt8 self.any_frame_change,
    writeInt8 self.map_visible_flag,
    writeInt8 self.fog_flag]

end Genie
