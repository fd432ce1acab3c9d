import Verif.Spec.Basic
import Verif.Model.Effect
import Verif.Model.Sound
import Verif.Model.PlayerColour
import Verif.Model.Graphic
import Verif.Model.TerrainRestriction
import Verif.Model.TerrainBlock
import Verif.Model.RandomMaps
import Verif.Model.TechTree
import Verif.Model.Tech
import Verif.Model.Unit
/-!
# Well-formedness of the plain records

What values each field of each record can hold in the file format: integer ranges, floats that are
single-precision numbers, strings that fit a debug string, list lengths that fit their count field
(or are fixed).  (Generated by `tools/gen_records.py`; records with version- or type-dependent parts
are specified by hand in `Verif/Spec/Versioned.lean`.)
-/

namespace Genie

/-- Values of `EffectCommand` the format can hold. -/
structure EffectCommand.WF (v : Version) (x : EffectCommand) : Prop where
  type : IsU8 x.type
  a : IsI16 x.a
  b : IsI16 x.b
  c : IsI16 x.c
  d : IsF32 x.d

/-- Values of `Effect` the format can hold. -/
structure Effect.WF (v : Version) (x : Effect) : Prop where
  name : IsDebugStr x.name
  effect_commands : UpTo 32767 (EffectCommand.WF v) x.effect_commands

/-- Values of `SoundItem` the format can hold. -/
structure SoundItem.WF (v : Version) (x : SoundItem) : Prop where
  filename : IsDebugStr x.filename
  resource_id : IsI32 x.resource_id
  probability : IsI16 x.probability
  civilization : IsI16 x.civilization
  icon_set : IsI16 x.icon_set

/-- Values of `Sound` the format can hold. -/
structure Sound.WF (v : Version) (x : Sound) : Prop where
  id : IsI16 x.id
  play_delay : IsI16 x.play_delay
  cache_time : IsI32 x.cache_time
  total_probability : IsI16 x.total_probability
  items : UpTo 32767 (SoundItem.WF v) x.items

/-- Values of `PlayerColour` the format can hold. -/
structure PlayerColour.WF (v : Version) (x : PlayerColour) : Prop where
  id : IsI32 x.id
  player_color_base : IsI32 x.player_color_base
  unit_outline_color : IsI32 x.unit_outline_color
  unit_selection_color_1 : IsI32 x.unit_selection_color_1
  unit_selection_color_2 : IsI32 x.unit_selection_color_2
  minimap_color : IsI32 x.minimap_color
  minimap_color_2 : IsI32 x.minimap_color_2
  minimap_color_3 : IsI32 x.minimap_color_3
  statistics_text : IsI32 x.statistics_text

/-- Values of `GraphicDelta` the format can hold. -/
structure GraphicDelta.WF (v : Version) (x : GraphicDelta) : Prop where
  graphic_id : IsI16 x.graphic_id
  padding_1 : IsI16 x.padding_1
  sprite_ptr : IsI32 x.sprite_ptr
  offset_x : IsI16 x.offset_x
  offset_y : IsI16 x.offset_y
  display_angle : IsI16 x.display_angle
  padding_2 : IsI16 x.padding_2

/-- Values of `GraphicAngleSound` the format can hold. -/
structure GraphicAngleSound.WF (v : Version) (x : GraphicAngleSound) : Prop where
  frame_num : IsI16 x.frame_num
  sound_id : IsI16 x.sound_id
  wwise_sound_id : IsI32 x.wwise_sound_id
  frame_num_2 : IsI16 x.frame_num_2
  sound_id_2 : IsI16 x.sound_id_2
  wwise_sound_id_2 : IsI32 x.wwise_sound_id_2
  frame_num_3 : IsI16 x.frame_num_3
  sound_id_3 : IsI16 x.sound_id_3
  wwise_sound_id_3 : IsI32 x.wwise_sound_id_3

/-- Values of `TerrainPassGraphic` the format can hold. -/
structure TerrainPassGraphic.WF (v : Version) (x : TerrainPassGraphic) : Prop where
  exit_tile_sprite_id : IsI32 x.exit_tile_sprite_id
  enter_tile_sprite_id : IsI32 x.enter_tile_sprite_id
  walk_tile_sprite_id : IsI32 x.walk_tile_sprite_id
  walk_sprite_rate : IsI32 x.walk_sprite_rate

/-- Values of `FrameData` the format can hold. -/
structure FrameData.WF (v : Version) (x : FrameData) : Prop where
  frame_count : IsI16 x.frame_count
  angle_count : IsI16 x.angle_count
  shape_id : IsI16 x.shape_id

/-- Values of `Terrain` the format can hold. -/
structure Terrain.WF (v : Version) (x : Terrain) : Prop where
  enabled : IsU8 x.enabled
  random : IsU8 x.random
  is_water : IsU8 x.is_water
  hide_in_editor : IsU8 x.hide_in_editor
  string_id : IsI32 x.string_id
  name : IsDebugStr x.name
  name_2 : IsDebugStr x.name_2
  slp : IsI32 x.slp
  shape_ptr : IsI32 x.shape_ptr
  sound_id : IsI32 x.sound_id
  wwise_sound_id : IsU32 x.wwise_sound_id
  wwise_sound_stop_id : IsU32 x.wwise_sound_stop_id
  blend_priority : IsI32 x.blend_priority
  blend_type : IsI32 x.blend_type
  overlay_mask_name : IsDebugStr x.overlay_mask_name
  colors : Exactly 3 IsU8 x.colors
  cliff_colors : Exactly 2 IsU8 x.cliff_colors
  passable_terrain : IsU8 x.passable_terrain
  impassable_terrain : IsU8 x.impassable_terrain
  is_animated : IsU8 x.is_animated
  animation_frames : IsI16 x.animation_frames
  pause_frames : IsI16 x.pause_frames
  interval : IsF32 x.interval
  pause_between_loops : IsF32 x.pause_between_loops
  frame : IsI16 x.frame
  draw_frame : IsI16 x.draw_frame
  animate_last : IsF32 x.animate_last
  frame_changed : IsU8 x.frame_changed
  drawn : IsU8 x.drawn
  frame_data : Exactly 19 (FrameData.WF v) x.frame_data
  terrain_to_draw : IsI16 x.terrain_to_draw
  terrain_dimensions : Exactly 2 IsI16 x.terrain_dimensions
  terrain_unit_masked_density : Exactly 30 IsI16 x.terrain_unit_masked_density
  terrain_unit_id : Exactly 30 IsI16 x.terrain_unit_id
  terrain_unit_density : Exactly 30 IsI16 x.terrain_unit_density
  terrain_unit_centering : Exactly 30 IsU8 x.terrain_unit_centering
  number_of_terrain_units_used : IsI16 x.number_of_terrain_units_used
  phantom : IsI16 x.phantom

/-- Values of `TileSize` the format can hold. -/
structure TileSize.WF (v : Version) (x : TileSize) : Prop where
  width : IsI16 x.width
  height : IsI16 x.height
  delta_y : IsI16 x.delta_y

/-- Values of `TerrainBlock` the format can hold. -/
structure TerrainBlock.WF (v : Version) (x : TerrainBlock) : Prop where
  virtual_function_ptr : IsU32 x.virtual_function_ptr
  map_pointer : IsU32 x.map_pointer
  map_width : IsI32 x.map_width
  map_height : IsI32 x.map_height
  world_width : IsI32 x.world_width
  world_height : IsI32 x.world_height
  tile_sizes : Exactly 19 (TileSize.WF v) x.tile_sizes
  padding_ts : IsI16 x.padding_ts
  terrains : Exactly 200 (Terrain.WF v) x.terrains
  map_min_x : IsF32 x.map_min_x
  map_min_y : IsF32 x.map_min_y
  map_max_x : IsF32 x.map_max_x
  map_max_y : IsF32 x.map_max_y
  map_max_x_plus_1 : IsF32 x.map_max_x_plus_1
  map_max_y_plus_1 : IsF32 x.map_max_y_plus_1
  terrains_used_2 : IsI16 x.terrains_used_2
  borders_used : IsI16 x.borders_used
  max_terrain : IsI16 x.max_terrain
  tile_width : IsI16 x.tile_width
  tile_height : IsI16 x.tile_height
  tile_half_height : IsI16 x.tile_half_height
  tile_half_width : IsI16 x.tile_half_width
  elev_height : IsI16 x.elev_height
  cur_row : IsI16 x.cur_row
  cur_col : IsI16 x.cur_col
  block_beg_row : IsI16 x.block_beg_row
  block_end_row : IsI16 x.block_end_row
  block_beg_col : IsI16 x.block_beg_col
  block_end_col : IsI16 x.block_end_col
  search_map_ptr : IsU32 x.search_map_ptr
  search_map_rows_ptr : IsU32 x.search_map_rows_ptr
  any_frame_change : IsU8 x.any_frame_change
  map_visible_flag : IsU8 x.map_visible_flag
  fog_flag : IsU8 x.fog_flag

/-- Values of `MapUnit` the format can hold. -/
structure MapUnit.WF (v : Version) (x : MapUnit) : Prop where
  unit : IsI32 x.unit
  host_terrain : IsI32 x.host_terrain
  group_placing : IsU8 x.group_placing
  scale_flag : IsU8 x.scale_flag
  padding_1 : IsI16 x.padding_1
  objects_per_group : IsI32 x.objects_per_group
  fluctuation : IsI32 x.fluctuation
  groups_per_player : IsI32 x.groups_per_player
  group_arena : IsI32 x.group_arena
  player_id : IsI32 x.player_id
  set_place_for_all_players : IsI32 x.set_place_for_all_players
  min_distance_to_players : IsI32 x.min_distance_to_players
  max_distance_to_players : IsI32 x.max_distance_to_players

/-- Values of `MapTerrain` the format can hold. -/
structure MapTerrain.WF (v : Version) (x : MapTerrain) : Prop where
  proportion : IsI32 x.proportion
  terrain : IsI32 x.terrain
  clump_count : IsI32 x.clump_count
  edge_spacing : IsI32 x.edge_spacing
  placement_terrain : IsI32 x.placement_terrain
  clumpiness : IsI32 x.clumpiness

/-- Values of `MapLand` the format can hold. -/
structure MapLand.WF (v : Version) (x : MapLand) : Prop where
  land_id : IsI32 x.land_id
  terrain : IsU32 x.terrain
  land_spacing : IsI32 x.land_spacing
  base_size : IsI32 x.base_size
  zone : IsU8 x.zone
  placement_type : IsU8 x.placement_type
  padding_1 : IsI16 x.padding_1
  base_x : IsI32 x.base_x
  base_y : IsI32 x.base_y
  land_proportion : IsU8 x.land_proportion
  by_player_flag : IsU8 x.by_player_flag
  padding_2 : IsI16 x.padding_2
  start_area_radius : IsI32 x.start_area_radius
  terrain_edge_fade : IsI32 x.terrain_edge_fade
  clumpiness : IsI32 x.clumpiness

/-- Values of `MapElevation` the format can hold. -/
structure MapElevation.WF (v : Version) (x : MapElevation) : Prop where
  proportion : IsI32 x.proportion
  terrain : IsI32 x.terrain
  clump_count : IsI32 x.clump_count
  base_terrain : IsI32 x.base_terrain
  base_elevation : IsI32 x.base_elevation
  tile_spacing : IsI32 x.tile_spacing

/-- Values of `MapInfo` the format can hold. -/
structure MapInfo.WF (v : Version) (x : MapInfo) : Prop where
  map_id : IsI32 x.map_id
  border_south_west : IsI32 x.border_south_west
  border_north_west : IsI32 x.border_north_west
  border_north_east : IsI32 x.border_north_east
  border_south_east : IsI32 x.border_south_east
  border_usage : IsI32 x.border_usage
  water_shape : IsI32 x.water_shape
  base_terrain : IsI32 x.base_terrain
  land_coverage : IsI32 x.land_coverage
  unused_id : IsI32 x.unused_id
  map_lands_size : x.map_lands_size = x.map_lands.length
  map_lands_ptr : IsI32 x.map_lands_ptr
  map_lands : UpTo 4294967295 (MapLand.WF v) x.map_lands
  map_terrains_size : x.map_terrains_size = x.map_terrains.length
  map_terrains_ptr : IsI32 x.map_terrains_ptr
  map_terrains : UpTo 4294967295 (MapTerrain.WF v) x.map_terrains
  map_units_size : x.map_units_size = x.map_units.length
  map_units_ptr : IsI32 x.map_units_ptr
  map_units : UpTo 4294967295 (MapUnit.WF v) x.map_units
  map_elevations_size : x.map_elevations_size = x.map_elevations.length
  map_elevations_ptr : IsI32 x.map_elevations_ptr
  map_elevations : UpTo 4294967295 (MapElevation.WF v) x.map_elevations

/-- Values of `RandomMaps` the format can hold. -/
structure RandomMaps.WF (v : Version) (x : RandomMaps) : Prop where
  random_maps_ptr : IsI32 x.random_maps_ptr
  map_info_1 : UpTo 4294967295 (MapInfo.WF v) x.map_info_1
  map_info_2 : x.map_info_2.length = x.map_info_1.length ∧ AllOf (MapInfo.WF v) x.map_info_2

/-- Values of `ResearchResourceCost` the format can hold. -/
structure ResearchResourceCost.WF (v : Version) (x : ResearchResourceCost) : Prop where
  type : IsI16 x.type
  amount : IsI16 x.amount
  flag : IsU8 x.flag

/-- Values of `ResearchLocation` the format can hold. -/
structure ResearchLocation.WF (v : Version) (x : ResearchLocation) : Prop where
  location_id : IsI16 x.location_id
  research_time : IsI16 x.research_time
  button_id : IsU8 x.button_id
  hot_key_id : IsI32 x.hot_key_id

/-- Values of `Common` the format can hold. -/
structure Common.WF (v : Version) (x : Common) : Prop where
  slots_used : IsI32 x.slots_used
  unit_research : Exactly 10 IsI32 x.unit_research
  mode : Exactly 10 IsI32 x.mode

/-- Values of `TechTreeAge` the format can hold. -/
structure TechTreeAge.WF (v : Version) (x : TechTreeAge) : Prop where
  id : IsI32 x.id
  status : IsU8 x.status
  buildings : UpTo 255 IsI32 x.buildings
  units : UpTo 255 IsI32 x.units
  techs : UpTo 255 IsI32 x.techs
  common : Common.WF v x.common
  num_building_levels : IsU8 x.num_building_levels
  buildings_per_zone : Exactly 10 IsU8 x.buildings_per_zone
  group_length_per_zone : Exactly 10 IsU8 x.group_length_per_zone
  max_age_length : IsU8 x.max_age_length
  line_mode : IsI32 x.line_mode

/-- Values of `BuildingConnection` the format can hold. -/
structure BuildingConnection.WF (v : Version) (x : BuildingConnection) : Prop where
  id : IsI32 x.id
  status : IsU8 x.status
  buildings : UpTo 255 IsI32 x.buildings
  units : UpTo 255 IsI32 x.units
  techs : UpTo 255 IsI32 x.techs
  common : Common.WF v x.common
  location_in_age : IsU8 x.location_in_age
  units_techs_total : Exactly 5 IsU8 x.units_techs_total
  units_techs_first : Exactly 5 IsU8 x.units_techs_first
  line_mode : IsI32 x.line_mode
  enabling_research : IsI32 x.enabling_research

/-- Values of `UnitConnection` the format can hold. -/
structure UnitConnection.WF (v : Version) (x : UnitConnection) : Prop where
  id : IsI32 x.id
  status : IsU8 x.status
  upper_building : IsI32 x.upper_building
  common : Common.WF v x.common
  vertical_line : IsI32 x.vertical_line
  units : UpTo 255 IsI32 x.units
  location_in_age : IsI32 x.location_in_age
  required_research : IsI32 x.required_research
  line_mode : IsI32 x.line_mode
  enabling_research : IsI32 x.enabling_research

/-- Values of `ResearchConnection` the format can hold. -/
structure ResearchConnection.WF (v : Version) (x : ResearchConnection) : Prop where
  id : IsI32 x.id
  status : IsU8 x.status
  upper_building : IsI32 x.upper_building
  buildings : UpTo 255 IsI32 x.buildings
  units : UpTo 255 IsI32 x.units
  techs : UpTo 255 IsI32 x.techs
  common : Common.WF v x.common
  vertical_line : IsI32 x.vertical_line
  location_in_age : IsI32 x.location_in_age
  line_mode : IsI32 x.line_mode

/-- Values of `TechTree` the format can hold. -/
structure TechTree.WF (v : Version) (x : TechTree) : Prop where
  total_unit_tech_groups : IsI32 x.total_unit_tech_groups
  tech_tree_ages : UpTo 255 (TechTreeAge.WF v) x.tech_tree_ages
  building_connections : UpTo 255 (BuildingConnection.WF v) x.building_connections
  unit_connections : UpTo 255 (UnitConnection.WF v) x.unit_connections
  research_connections : UpTo 255 (ResearchConnection.WF v) x.research_connections

/-- Values of `ResourceStorage` the format can hold. -/
structure ResourceStorage.WF (v : Version) (x : ResourceStorage) : Prop where
  type : IsI16 x.type
  amount : IsF32 x.amount
  flag : IsI8 x.flag

/-- Values of `DamageGraphic` the format can hold. -/
structure DamageGraphic.WF (v : Version) (x : DamageGraphic) : Prop where
  graphic_id : IsI16 x.graphic_id
  damage_percent : IsI16 x.damage_percent
  apply_mode : IsI8 x.apply_mode

/-- Values of `DeadFish` the format can hold. -/
structure DeadFish.WF (v : Version) (x : DeadFish) : Prop where
  walking_graphic : IsI16 x.walking_graphic
  running_graphic : IsI16 x.running_graphic
  rotation_speed : IsF32 x.rotation_speed
  old_size_class : IsI8 x.old_size_class
  tracking_unit : IsI16 x.tracking_unit
  tracking_unit_mode : IsI8 x.tracking_unit_mode
  tracking_unit_density : IsF32 x.tracking_unit_density
  old_move_algorithm : IsI8 x.old_move_algorithm
  turn_radius : IsF32 x.turn_radius
  turn_radius_speed : IsF32 x.turn_radius_speed
  max_yaw_per_second_moving : IsF32 x.max_yaw_per_second_moving
  stationary_yaw_revolution_time : IsF32 x.stationary_yaw_revolution_time
  max_yaw_per_second_stationary : IsF32 x.max_yaw_per_second_stationary
  min_collision_size_multiplier : IsF32 x.min_collision_size_multiplier

/-- Values of `AttackOrArmor` the format can hold. -/
structure AttackOrArmor.WF (v : Version) (x : AttackOrArmor) : Prop where
  class_ : IsI16 x.class_
  amount : IsI16 x.amount

/-- Values of `Projectile` the format can hold. -/
structure Projectile.WF (v : Version) (x : Projectile) : Prop where
  projectile_type : IsI8 x.projectile_type
  smart_mode : IsI8 x.smart_mode
  hit_mode : IsI8 x.hit_mode
  vanish_mode : IsI8 x.vanish_mode
  area_effect_specials : IsI8 x.area_effect_specials
  projectile_arc : IsF32 x.projectile_arc

/-- Values of `ResourceCost` the format can hold. -/
structure ResourceCost.WF (v : Version) (x : ResourceCost) : Prop where
  type : IsI16 x.type
  amount : IsI16 x.amount
  flag : IsI16 x.flag

/-- Values of `BuildingAnnex` the format can hold. -/
structure BuildingAnnex.WF (v : Version) (x : BuildingAnnex) : Prop where
  unit_id : IsI16 x.unit_id
  misplacement_x : IsF32 x.misplacement_x
  misplacement_y : IsF32 x.misplacement_y

/-- Values of `Building` the format can hold. -/
structure Building.WF (v : Version) (x : Building) : Prop where
  construction_graphic_id : IsI16 x.construction_graphic_id
  snow_graphic_id : IsI16 x.snow_graphic_id
  destruction_graphic_id : IsI16 x.destruction_graphic_id
  destruction_rubble_graphic_id : IsI16 x.destruction_rubble_graphic_id
  researching_graphic : IsI16 x.researching_graphic
  research_completed_graphic : IsI16 x.research_completed_graphic
  adjacent_mode : IsI8 x.adjacent_mode
  graphics_angle : IsI16 x.graphics_angle
  disappears_when_built : IsI8 x.disappears_when_built
  stack_unit_id : IsI16 x.stack_unit_id
  foundation_terrain_id : IsI16 x.foundation_terrain_id
  old_overlap_id : IsI16 x.old_overlap_id
  tech_id : IsI16 x.tech_id
  can_burn : IsI8 x.can_burn
  annexes : Exactly 4 (BuildingAnnex.WF v) x.annexes
  head_unit : IsI16 x.head_unit
  transform_unit : IsI16 x.transform_unit
  transform_sound : IsI16 x.transform_sound
  construction_sound : IsI16 x.construction_sound
  wwise_transform_sound_id : IsI32 x.wwise_transform_sound_id
  wwise_construction_sound_id : IsI32 x.wwise_construction_sound_id
  garrison_type : IsI8 x.garrison_type
  garrison_heal_rate : IsF32 x.garrison_heal_rate
  garrison_repair_rate : IsF32 x.garrison_repair_rate
  pile_unit : IsI16 x.pile_unit
  looting_table : Exactly 6 IsI8 x.looting_table

end Genie
