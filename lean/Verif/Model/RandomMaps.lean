import Verif.Model.Common
/-!
# `/repo/src/genieutils/randommaps.py`

Generated by `tools/gen_model.py` from the source text (reader and writer transcribed
independently, statement by statement).
-/

set_option linter.unusedVariables false

namespace Genie

/-- `class MapUnit` — `/repo/src/genieutils/randommaps.py:7-21`. -/
structure MapUnit where
  unit : Int
  host_terrain : Int
  group_placing : Int
  scale_flag : Int
  padding_1 : Int
  objects_per_group : Int
  fluctuation : Int
  groups_per_player : Int
  group_arena : Int
  player_id : Int
  set_place_for_all_players : Int
  min_distance_to_players : Int
  max_distance_to_players : Int
deriving DecidableEq, Inhabited

/-- `MapUnit.from_bytes` — `/repo/src/genieutils/randommaps.py:24-39`. -/
def MapUnit.fromBytes : Reader MapUnit := do
  let unit ← readInt32
  let host_terrain ← readInt32
  let group_placing ← readInt8
  let scale_flag ← readInt8
  let padding_1 ← readInt16
  let objects_per_group ← readInt32
  let fluctuation ← readInt32
  let groups_per_player ← readInt32
  let group_arena ← readInt32
  let player_id ← readInt32
  let set_place_for_all_players ← readInt32
  let min_distance_to_players ← readInt32
  let max_distance_to_players ← readInt32
  return {
    unit := unit,
    host_terrain := host_terrain,
    group_placing := group_placing,
    scale_flag := scale_flag,
    padding_1 := padding_1,
    objects_per_group := objects_per_group,
    fluctuation := fluctuation,
    groups_per_player := groups_per_player,
    group_arena := group_arena,
    player_id := player_id,
    set_place_for_all_players := set_place_for_all_players,
    min_distance_to_players := min_distance_to_players,
    max_distance_to_players := max_distance_to_players }

/-- `MapUnit.to_bytes` — `/repo/src/genieutils/randommaps.py:41-56`. -/
def MapUnit.toBytes (version : Version) (self : MapUnit) : Py Bytes :=
  joinB [
    writeInt32 self.unit,
    writeInt32 self.host_terrain,
    writeInt8 self.group_placing,
    writeInt8 self.scale_flag,
    writeInt16 self.padding_1,
    writeInt32 self.objects_per_group,
    writeInt32 self.fluctuation,
    writeInt32 self.groups_per_player,
    writeInt32 self.group_arena,
    writeInt32 self.player_id,
    writeInt32 self.set_place_for_all_players,
    writeInt32 self.min_distance_to_players,
    writeInt32 self.max_distance_to_players]

/-- `class MapTerrain` — `/repo/src/genieutils/randommaps.py:59-66`. -/
structure MapTerrain where
  proportion : Int
  terrain : Int
  clump_count : Int
  edge_spacing : Int
  placement_terrain : Int
  clumpiness : Int
deriving DecidableEq, Inhabited

/-- `MapTerrain.from_bytes` — `/repo/src/genieutils/randommaps.py:69-77`. -/
def MapTerrain.fromBytes : Reader MapTerrain := do
  let proportion ← readInt32
  let terrain ← readInt32
  let clump_count ← readInt32
  let edge_spacing ← readInt32
  let placement_terrain ← readInt32
  let clumpiness ← readInt32
  return {
    proportion := proportion,
    terrain := terrain,
    clump_count := clump_count,
    edge_spacing := edge_spacing,
    placement_terrain := placement_terrain,
    clumpiness := clumpiness }

/-- `MapTerrain.to_bytes` — `/repo/src/genieutils/randommaps.py:79-87`. -/
def MapTerrain.toBytes (version : Version) (self : MapTerrain) : Py Bytes :=
  joinB [
    writeInt32 self.proportion,
    writeInt32 self.terrain,
    writeInt32 self.clump_count,
    writeInt32 self.edge_spacing,
    writeInt32 self.placement_terrain,
    writeInt32 self.clumpiness]

/-- `class MapLand` — `/repo/src/genieutils/randommaps.py:90-106`. -/
structure MapLand where
  land_id : Int
  terrain : Int
  land_spacing : Int
  base_size : Int
  zone : Int
  placement_type : Int
  padding_1 : Int
  base_x : Int
  base_y : Int
  land_proportion : Int
  by_player_flag : Int
  padding_2 : Int
  start_area_radius : Int
  terrain_edge_fade : Int
  clumpiness : Int
deriving DecidableEq, Inhabited

/-- `MapLand.from_bytes` — `/repo/src/genieutils/randommaps.py:109-126`. -/
def MapLand.fromBytes : Reader MapLand := do
  let land_id ← readInt32
  let terrain ← readInt32 (signed := false)
  let land_spacing ← readInt32
  let base_size ← readInt32
  let zone ← readInt8
  let placement_type ← readInt8
  let padding_1 ← readInt16
  let base_x ← readInt32
  let base_y ← readInt32
  let land_proportion ← readInt8
  let by_player_flag ← readInt8
  let padding_2 ← readInt16
  let start_area_radius ← readInt32
  let terrain_edge_fade ← readInt32
  let clumpiness ← readInt32
  return {
    land_id := land_id,
    terrain := terrain,
    land_spacing := land_spacing,
    base_size := base_size,
    zone := zone,
    placement_type := placement_type,
    padding_1 := padding_1,
    base_x := base_x,
    base_y := base_y,
    land_proportion := land_proportion,
    by_player_flag := by_player_flag,
    padding_2 := padding_2,
    start_area_radius := start_area_radius,
    terrain_edge_fade := terrain_edge_fade,
    clumpiness := clumpiness }

/-- `MapLand.to_bytes` — `/repo/src/genieutils/randommaps.py:128-145`. -/
def MapLand.toBytes (version : Version) (self : MapLand) : Py Bytes :=
  joinB [
    writeInt32 self.land_id,
    writeInt32 self.terrain (signed := false),
    writeInt32 self.land_spacing,
    writeInt32 self.base_size,
    writeInt8 self.zone,
    writeInt8 self.placement_type,
    writeInt16 self.padding_1,
    writeInt32 self.base_x,
    writeInt32 self.base_y,
    writeInt8 self.land_proportion,
    writeInt8 self.by_player_flag,
    writeInt16 self.padding_2,
    writeInt32 self.start_area_radius,
    writeInt32 self.terrain_edge_fade,
    writeInt32 self.clumpiness]

/-- `class MapElevation` — `/repo/src/genieutils/randommaps.py:148-155`. -/
structure MapElevation where
  proportion : Int
  terrain : Int
  clump_count : Int
  base_terrain : Int
  base_elevation : Int
  tile_spacing : Int
deriving DecidableEq, Inhabited

/-- `MapElevation.from_bytes` — `/repo/src/genieutils/randommaps.py:158-166`. -/
def MapElevation.fromBytes : Reader MapElevation := do
  let proportion ← readInt32
  let terrain ← readInt32
  let clump_count ← readInt32
  let base_terrain ← readInt32
  let base_elevation ← readInt32
  let tile_spacing ← readInt32
  return {
    proportion := proportion,
    terrain := terrain,
    clump_count := clump_count,
    base_terrain := base_terrain,
    base_elevation := base_elevation,
    tile_spacing := tile_spacing }

/-- `MapElevation.to_bytes` — `/repo/src/genieutils/randommaps.py:168-176`. -/
def MapElevation.toBytes (version : Version) (self : MapElevation) : Py Bytes :=
  joinB [
    writeInt32 self.proportion,
    writeInt32 self.terrain,
    writeInt32 self.clump_count,
    writeInt32 self.base_terrain,
    writeInt32 self.base_elevation,
    writeInt32 self.tile_spacing]

/-- `class MapInfo` — `/repo/src/genieutils/randommaps.py:179-202`. -/
structure MapInfo where
  map_id : Int
  border_south_west : Int
  border_north_west : Int
  border_north_east : Int
  border_south_east : Int
  border_usage : Int
  water_shape : Int
  base_terrain : Int
  land_coverage : Int
  unused_id : Int
  map_lands_size : Int
  map_lands_ptr : Int
  map_lands : List MapLand
  map_terrains_size : Int
  map_terrains_ptr : Int
  map_terrains : List MapTerrain
  map_units_size : Int
  map_units_ptr : Int
  map_units : List MapUnit
  map_elevations_size : Int
  map_elevations_ptr : Int
  map_elevations : List MapElevation
deriving DecidableEq, Inhabited

/-- `MapInfo.from_bytes` — `/repo/src/genieutils/randommaps.py:205-251`. -/
def MapInfo.fromBytes : Reader MapInfo := do
  let map_id ← readInt32
  let border_south_west ← readInt32
  let border_north_west ← readInt32
  let border_north_east ← readInt32
  let border_south_east ← readInt32
  let border_usage ← readInt32
  let water_shape ← readInt32
  let base_terrain ← readInt32
  let land_coverage ← readInt32
  let unused_id ← readInt32
  let map_lands_size ← readInt32 (signed := false)
  let map_lands_ptr ← readInt32
  let map_lands ← readClassArray MapLand.fromBytes map_lands_size
  let map_terrains_size ← readInt32 (signed := false)
  let map_terrains_ptr ← readInt32
  let map_terrains ← readClassArray MapTerrain.fromBytes map_terrains_size
  let map_units_size ← readInt32 (signed := false)
  let map_units_ptr ← readInt32
  let map_units ← readClassArray MapUnit.fromBytes map_units_size
  let map_elevations_size ← readInt32 (signed := false)
  let map_elevations_ptr ← readInt32
  let map_elevations ← readClassArray MapElevation.fromBytes map_elevations_size
  return {
    map_id := map_id,
    border_south_west := border_south_west,
    border_north_west := border_north_west,
    border_north_east := border_north_east,
    border_south_east := border_south_east,
    border_usage := border_usage,
    water_shape := water_shape,
    base_terrain := base_terrain,
    land_coverage := land_coverage,
    unused_id := unused_id,
    map_lands_size := map_lands_size,
    map_lands_ptr := map_lands_ptr,
    map_lands := map_lands,
    map_terrains_size := map_terrains_size,
    map_terrains_ptr := map_terrains_ptr,
    map_terrains := map_terrains,
    map_units_size := map_units_size,
    map_units_ptr := map_units_ptr,
    map_units := map_units,
    map_elevations_size := map_elevations_size,
    map_elevations_ptr := map_elevations_ptr,
    map_elevations := map_elevations }

/-- `MapInfo.to_bytes` — `/repo/src/genieutils/randommaps.py:253-277`. -/
def MapInfo.toBytes (version : Version) (self : MapInfo) : Py Bytes :=
  joinB [
    writeInt32 self.map_id,
    writeInt32 self.border_south_west,
    writeInt32 self.border_north_west,
    writeInt32 self.border_north_east,
    writeInt32 self.border_south_east,
    writeInt32 self.border_usage,
    writeInt32 self.water_shape,
    writeInt32 self.base_terrain,
    writeInt32 self.land_coverage,
    writeInt32 self.unused_id,
    writeInt32 self.map_lands_size (signed := false),
    writeInt32 self.map_lands_ptr,
    writeClassArray MapLand.toBytes self.map_lands version,
    writeInt32 self.map_terrains_size (signed := false),
    writeInt32 self.map_terrains_ptr,
    writeClassArray MapTerrain.toBytes self.map_terrains version,
    writeInt32 self.map_units_size (signed := false),
    writeInt32 self.map_units_ptr,
    writeClassArray MapUnit.toBytes self.map_units version,
    writeInt32 self.map_elevations_size (signed := false),
    writeInt32 self.map_elevations_ptr,
    writeClassArray MapElevation.toBytes self.map_elevations version]

/-- `class RandomMaps` — `/repo/src/genieutils/randommaps.py:280-284`. -/
structure RandomMaps where
  random_maps_ptr : Int
  map_info_1 : List MapInfo
  map_info_2 : List MapInfo
deriving DecidableEq, Inhabited

/-- `RandomMaps.from_bytes` — `/repo/src/genieutils/randommaps.py:287-296`. -/
def RandomMaps.fromBytes : Reader RandomMaps := do
  let random_map_count ← readInt32 (signed := false)
  let random_maps_ptr ← readInt32
  let map_info_1 ← readClassArray MapInfo.fromBytes random_map_count
  let map_info_2 ← readClassArray MapInfo.fromBytes random_map_count
  return {
    random_maps_ptr := random_maps_ptr,
    map_info_1 := map_info_1,
    map_info_2 := map_info_2 }

/-- `RandomMaps.to_bytes` — `/repo/src/genieutils/randommaps.py:298-305`. -/
def RandomMaps.toBytes (version : Version) (self : RandomMaps) : Py Bytes :=
  if self.map_info_1.length ≠ self.map_info_2.length then .error .assertionError
  else joinB [
    writeInt32 self.map_info_1.length (signed := false),
    writeInt32 self.random_maps_ptr,
    writeClassArray MapInfo.toBytes self.map_info_1 version,
    writeClassArray MapInfo.toBytes self.map_info_2 version]

end Genie
