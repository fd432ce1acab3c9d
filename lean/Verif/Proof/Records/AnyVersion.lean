import Verif.Spec.Versioned
/-!
# Records without version-dependent parts are well-formed in all versions or in none (generated by `tools/gen_wfv.py`)
-/

namespace Genie

theorem AllOf.imp {p q : α → Prop} {l : List α} (f : ∀ {x}, p x → q x) (h : AllOf p l) : AllOf q l := fun x hx => f (h x hx)
theorem UpTo.imp {p q : α → Prop} {l : List α} {n : Nat} (f : ∀ {x}, p x → q x) (h : UpTo n p l) : UpTo n q l := ⟨h.1, AllOf.imp f h.2⟩
theorem Exactly.imp {p q : α → Prop} {l : List α} {n : Nat} (f : ∀ {x}, p x → q x) (h : Exactly n p l) : Exactly n q l := ⟨h.1, AllOf.imp f h.2⟩
theorem IfSome.imp {p q : α → Prop} {o : Option α} (f : ∀ {x}, p x → q x) (h : IfSome p o) : IfSome q o := fun x hx => f (h x hx)

theorem EffectCommand.wfv {v w : Version} {x : EffectCommand} (h : EffectCommand.WF v x) : EffectCommand.WF w x where
  type := h.type
  a := h.a
  b := h.b
  c := h.c
  d := h.d

theorem Effect.wfv {v w : Version} {x : Effect} (h : Effect.WF v x) : Effect.WF w x where
  name := h.name
  effect_commands := h.effect_commands.imp EffectCommand.wfv

theorem SoundItem.wfv {v w : Version} {x : SoundItem} (h : SoundItem.WF v x) : SoundItem.WF w x where
  filename := h.filename
  resource_id := h.resource_id
  probability := h.probability
  civilization := h.civilization
  icon_set := h.icon_set

theorem Sound.wfv {v w : Version} {x : Sound} (h : Sound.WF v x) : Sound.WF w x where
  id := h.id
  play_delay := h.play_delay
  cache_time := h.cache_time
  total_probability := h.total_probability
  items := h.items.imp SoundItem.wfv

theorem PlayerColour.wfv {v w : Version} {x : PlayerColour} (h : PlayerColour.WF v x) : PlayerColour.WF w x where
  id := h.id
  player_color_base := h.player_color_base
  unit_outline_color := h.unit_outline_color
  unit_selection_color_1 := h.unit_selection_color_1
  unit_selection_color_2 := h.unit_selection_color_2
  minimap_color := h.minimap_color
  minimap_color_2 := h.minimap_color_2
  minimap_color_3 := h.minimap_color_3
  statistics_text := h.statistics_text

theorem GraphicDelta.wfv {v w : Version} {x : GraphicDelta} (h : GraphicDelta.WF v x) : GraphicDelta.WF w x where
  graphic_id := h.graphic_id
  padding_1 := h.padding_1
  sprite_ptr := h.sprite_ptr
  offset_x := h.offset_x
  offset_y := h.offset_y
  display_angle := h.display_angle
  padding_2 := h.padding_2

theorem GraphicAngleSound.wfv {v w : Version} {x : GraphicAngleSound} (h : GraphicAngleSound.WF v x) : GraphicAngleSound.WF w x where
  frame_num := h.frame_num
  sound_id := h.sound_id
  wwise_sound_id := h.wwise_sound_id
  frame_num_2 := h.frame_num_2
  sound_id_2 := h.sound_id_2
  wwise_sound_id_2 := h.wwise_sound_id_2
  frame_num_3 := h.frame_num_3
  sound_id_3 := h.sound_id_3
  wwise_sound_id_3 := h.wwise_sound_id_3

theorem TerrainPassGraphic.wfv {v w : Version} {x : TerrainPassGraphic} (h : TerrainPassGraphic.WF v x) : TerrainPassGraphic.WF w x where
  exit_tile_sprite_id := h.exit_tile_sprite_id
  enter_tile_sprite_id := h.enter_tile_sprite_id
  walk_tile_sprite_id := h.walk_tile_sprite_id
  walk_sprite_rate := h.walk_sprite_rate

theorem FrameData.wfv {v w : Version} {x : FrameData} (h : FrameData.WF v x) : FrameData.WF w x where
  frame_count := h.frame_count
  angle_count := h.angle_count
  shape_id := h.shape_id

theorem Terrain.wfv {v w : Version} {x : Terrain} (h : Terrain.WF v x) : Terrain.WF w x where
  enabled := h.enabled
  random := h.random
  is_water := h.is_water
  hide_in_editor := h.hide_in_editor
  string_id := h.string_id
  name := h.name
  name_2 := h.name_2
  slp := h.slp
  shape_ptr := h.shape_ptr
  sound_id := h.sound_id
  wwise_sound_id := h.wwise_sound_id
  wwise_sound_stop_id := h.wwise_sound_stop_id
  blend_priority := h.blend_priority
  blend_type := h.blend_type
  overlay_mask_name := h.overlay_mask_name
  colors := h.colors
  cliff_colors := h.cliff_colors
  passable_terrain := h.passable_terrain
  impassable_terrain := h.impassable_terrain
  is_animated := h.is_animated
  animation_frames := h.animation_frames
  pause_frames := h.pause_frames
  interval := h.interval
  pause_between_loops := h.pause_between_loops
  frame := h.frame
  draw_frame := h.draw_frame
  animate_last := h.animate_last
  frame_changed := h.frame_changed
  drawn := h.drawn
  frame_data := h.frame_data.imp FrameData.wfv
  terrain_to_draw := h.terrain_to_draw
  terrain_dimensions := h.terrain_dimensions
  terrain_unit_masked_density := h.terrain_unit_masked_density
  terrain_unit_id := h.terrain_unit_id
  terrain_unit_density := h.terrain_unit_density
  terrain_unit_centering := h.terrain_unit_centering
  number_of_terrain_units_used := h.number_of_terrain_units_used
  phantom := h.phantom

theorem TileSize.wfv {v w : Version} {x : TileSize} (h : TileSize.WF v x) : TileSize.WF w x where
  width := h.width
  height := h.height
  delta_y := h.delta_y

theorem TerrainBlock.wfv {v w : Version} {x : TerrainBlock} (h : TerrainBlock.WF v x) : TerrainBlock.WF w x where
  virtual_function_ptr := h.virtual_function_ptr
  map_pointer := h.map_pointer
  map_width := h.map_width
  map_height := h.map_height
  world_width := h.world_width
  world_height := h.world_height
  tile_sizes := h.tile_sizes.imp TileSize.wfv
  padding_ts := h.padding_ts
  terrains := h.terrains.imp Terrain.wfv
  map_min_x := h.map_min_x
  map_min_y := h.map_min_y
  map_max_x := h.map_max_x
  map_max_y := h.map_max_y
  map_max_x_plus_1 := h.map_max_x_plus_1
  map_max_y_plus_1 := h.map_max_y_plus_1
  terrains_used_2 := h.terrains_used_2
  borders_used := h.borders_used
  max_terrain := h.max_terrain
  tile_width := h.tile_width
  tile_height := h.tile_height
  tile_half_height := h.tile_half_height
  tile_half_width := h.tile_half_width
  elev_height := h.elev_height
  cur_row := h.cur_row
  cur_col := h.cur_col
  block_beg_row := h.block_beg_row
  block_end_row := h.block_end_row
  block_beg_col := h.block_beg_col
  block_end_col := h.block_end_col
  search_map_ptr := h.search_map_ptr
  search_map_rows_ptr := h.search_map_rows_ptr
  any_frame_change := h.any_frame_change
  map_visible_flag := h.map_visible_flag
  fog_flag := h.fog_flag

theorem MapUnit.wfv {v w : Version} {x : MapUnit} (h : MapUnit.WF v x) : MapUnit.WF w x where
  unit := h.unit
  host_terrain := h.host_terrain
  group_placing := h.group_placing
  scale_flag := h.scale_flag
  padding_1 := h.padding_1
  objects_per_group := h.objects_per_group
  fluctuation := h.fluctuation
  groups_per_player := h.groups_per_player
  group_arena := h.group_arena
  player_id := h.player_id
  set_place_for_all_players := h.set_place_for_all_players
  min_distance_to_players := h.min_distance_to_players
  max_distance_to_players := h.max_distance_to_players

theorem MapTerrain.wfv {v w : Version} {x : MapTerrain} (h : MapTerrain.WF v x) : MapTerrain.WF w x where
  proportion := h.proportion
  terrain := h.terrain
  clump_count := h.clump_count
  edge_spacing := h.edge_spacing
  placement_terrain := h.placement_terrain
  clumpiness := h.clumpiness

theorem MapLand.wfv {v w : Version} {x : MapLand} (h : MapLand.WF v x) : MapLand.WF w x where
  land_id := h.land_id
  terrain := h.terrain
  land_spacing := h.land_spacing
  base_size := h.base_size
  zone := h.zone
  placement_type := h.placement_type
  padding_1 := h.padding_1
  base_x := h.base_x
  base_y := h.base_y
  land_proportion := h.land_proportion
  by_player_flag := h.by_player_flag
  padding_2 := h.padding_2
  start_area_radius := h.start_area_radius
  terrain_edge_fade := h.terrain_edge_fade
  clumpiness := h.clumpiness

theorem MapElevation.wfv {v w : Version} {x : MapElevation} (h : MapElevation.WF v x) : MapElevation.WF w x where
  proportion := h.proportion
  terrain := h.terrain
  clump_count := h.clump_count
  base_terrain := h.base_terrain
  base_elevation := h.base_elevation
  tile_spacing := h.tile_spacing

theorem MapInfo.wfv {v w : Version} {x : MapInfo} (h : MapInfo.WF v x) : MapInfo.WF w x where
  map_id := h.map_id
  border_south_west := h.border_south_west
  border_north_west := h.border_north_west
  border_north_east := h.border_north_east
  border_south_east := h.border_south_east
  border_usage := h.border_usage
  water_shape := h.water_shape
  base_terrain := h.base_terrain
  land_coverage := h.land_coverage
  unused_id := h.unused_id
  map_lands_size := h.map_lands_size
  map_lands_ptr := h.map_lands_ptr
  map_lands := h.map_lands.imp MapLand.wfv
  map_terrains_size := h.map_terrains_size
  map_terrains_ptr := h.map_terrains_ptr
  map_terrains := h.map_terrains.imp MapTerrain.wfv
  map_units_size := h.map_units_size
  map_units_ptr := h.map_units_ptr
  map_units := h.map_units.imp MapUnit.wfv
  map_elevations_size := h.map_elevations_size
  map_elevations_ptr := h.map_elevations_ptr
  map_elevations := h.map_elevations.imp MapElevation.wfv

theorem RandomMaps.wfv {v w : Version} {x : RandomMaps} (h : RandomMaps.WF v x) : RandomMaps.WF w x where
  random_maps_ptr := h.random_maps_ptr
  map_info_1 := h.map_info_1.imp MapInfo.wfv
  map_info_2 := ⟨h.map_info_2.1, h.map_info_2.2.imp MapInfo.wfv⟩

theorem ResearchResourceCost.wfv {v w : Version} {x : ResearchResourceCost} (h : ResearchResourceCost.WF v x) : ResearchResourceCost.WF w x where
  type := h.type
  amount := h.amount
  flag := h.flag

theorem ResearchLocation.wfv {v w : Version} {x : ResearchLocation} (h : ResearchLocation.WF v x) : ResearchLocation.WF w x where
  location_id := h.location_id
  research_time := h.research_time
  button_id := h.button_id
  hot_key_id := h.hot_key_id

theorem Common.wfv {v w : Version} {x : Common} (h : Common.WF v x) : Common.WF w x where
  slots_used := h.slots_used
  unit_research := h.unit_research
  mode := h.mode

theorem TechTreeAge.wfv {v w : Version} {x : TechTreeAge} (h : TechTreeAge.WF v x) : TechTreeAge.WF w x where
  id := h.id
  status := h.status
  buildings := h.buildings
  units := h.units
  techs := h.techs
  common := Common.wfv h.common
  num_building_levels := h.num_building_levels
  buildings_per_zone := h.buildings_per_zone
  group_length_per_zone := h.group_length_per_zone
  max_age_length := h.max_age_length
  line_mode := h.line_mode

theorem BuildingConnection.wfv {v w : Version} {x : BuildingConnection} (h : BuildingConnection.WF v x) : BuildingConnection.WF w x where
  id := h.id
  status := h.status
  buildings := h.buildings
  units := h.units
  techs := h.techs
  common := Common.wfv h.common
  location_in_age := h.location_in_age
  units_techs_total := h.units_techs_total
  units_techs_first := h.units_techs_first
  line_mode := h.line_mode
  enabling_research := h.enabling_research

theorem UnitConnection.wfv {v w : Version} {x : UnitConnection} (h : UnitConnection.WF v x) : UnitConnection.WF w x where
  id := h.id
  status := h.status
  upper_building := h.upper_building
  common := Common.wfv h.common
  vertical_line := h.vertical_line
  units := h.units
  location_in_age := h.location_in_age
  required_research := h.required_research
  line_mode := h.line_mode
  enabling_research := h.enabling_research

theorem ResearchConnection.wfv {v w : Version} {x : ResearchConnection} (h : ResearchConnection.WF v x) : ResearchConnection.WF w x where
  id := h.id
  status := h.status
  upper_building := h.upper_building
  buildings := h.buildings
  units := h.units
  techs := h.techs
  common := Common.wfv h.common
  vertical_line := h.vertical_line
  location_in_age := h.location_in_age
  line_mode := h.line_mode

theorem TechTree.wfv {v w : Version} {x : TechTree} (h : TechTree.WF v x) : TechTree.WF w x where
  total_unit_tech_groups := h.total_unit_tech_groups
  tech_tree_ages := h.tech_tree_ages.imp TechTreeAge.wfv
  building_connections := h.building_connections.imp BuildingConnection.wfv
  unit_connections := h.unit_connections.imp UnitConnection.wfv
  research_connections := h.research_connections.imp ResearchConnection.wfv

theorem ResourceStorage.wfv {v w : Version} {x : ResourceStorage} (h : ResourceStorage.WF v x) : ResourceStorage.WF w x where
  type := h.type
  amount := h.amount
  flag := h.flag

theorem DamageGraphic.wfv {v w : Version} {x : DamageGraphic} (h : DamageGraphic.WF v x) : DamageGraphic.WF w x where
  graphic_id := h.graphic_id
  damage_percent := h.damage_percent
  apply_mode := h.apply_mode

theorem DeadFish.wfv {v w : Version} {x : DeadFish} (h : DeadFish.WF v x) : DeadFish.WF w x where
  walking_graphic := h.walking_graphic
  running_graphic := h.running_graphic
  rotation_speed := h.rotation_speed
  old_size_class := h.old_size_class
  tracking_unit := h.tracking_unit
  tracking_unit_mode := h.tracking_unit_mode
  tracking_unit_density := h.tracking_unit_density
  old_move_algorithm := h.old_move_algorithm
  turn_radius := h.turn_radius
  turn_radius_speed := h.turn_radius_speed
  max_yaw_per_second_moving := h.max_yaw_per_second_moving
  stationary_yaw_revolution_time := h.stationary_yaw_revolution_time
  max_yaw_per_second_stationary := h.max_yaw_per_second_stationary
  min_collision_size_multiplier := h.min_collision_size_multiplier

theorem AttackOrArmor.wfv {v w : Version} {x : AttackOrArmor} (h : AttackOrArmor.WF v x) : AttackOrArmor.WF w x where
  class_ := h.class_
  amount := h.amount

theorem Projectile.wfv {v w : Version} {x : Projectile} (h : Projectile.WF v x) : Projectile.WF w x where
  projectile_type := h.projectile_type
  smart_mode := h.smart_mode
  hit_mode := h.hit_mode
  vanish_mode := h.vanish_mode
  area_effect_specials := h.area_effect_specials
  projectile_arc := h.projectile_arc

theorem ResourceCost.wfv {v w : Version} {x : ResourceCost} (h : ResourceCost.WF v x) : ResourceCost.WF w x where
  type := h.type
  amount := h.amount
  flag := h.flag

theorem BuildingAnnex.wfv {v w : Version} {x : BuildingAnnex} (h : BuildingAnnex.WF v x) : BuildingAnnex.WF w x where
  unit_id := h.unit_id
  misplacement_x := h.misplacement_x
  misplacement_y := h.misplacement_y

theorem Building.wfv {v w : Version} {x : Building} (h : Building.WF v x) : Building.WF w x where
  construction_graphic_id := h.construction_graphic_id
  snow_graphic_id := h.snow_graphic_id
  destruction_graphic_id := h.destruction_graphic_id
  destruction_rubble_graphic_id := h.destruction_rubble_graphic_id
  researching_graphic := h.researching_graphic
  research_completed_graphic := h.research_completed_graphic
  adjacent_mode := h.adjacent_mode
  graphics_angle := h.graphics_angle
  disappears_when_built := h.disappears_when_built
  stack_unit_id := h.stack_unit_id
  foundation_terrain_id := h.foundation_terrain_id
  old_overlap_id := h.old_overlap_id
  tech_id := h.tech_id
  can_burn := h.can_burn
  annexes := h.annexes.imp BuildingAnnex.wfv
  head_unit := h.head_unit
  transform_unit := h.transform_unit
  transform_sound := h.transform_sound
  construction_sound := h.construction_sound
  wwise_transform_sound_id := h.wwise_transform_sound_id
  wwise_construction_sound_id := h.wwise_construction_sound_id
  garrison_type := h.garrison_type
  garrison_heal_rate := h.garrison_heal_rate
  garrison_repair_rate := h.garrison_repair_rate
  pile_unit := h.pile_unit
  looting_table := h.looting_table

theorem Graphic.wfv {v w : Version} {x : Graphic} (h : Graphic.WF v x) : Graphic.WF w x where
  name := h.name
  file_name := h.file_name
  particle_effect_name := h.particle_effect_name
  slp := h.slp
  is_loaded := h.is_loaded
  old_color_flag := h.old_color_flag
  layer := h.layer
  player_color := h.player_color
  transparent_selection := h.transparent_selection
  coordinates := h.coordinates
  sound_id := h.sound_id
  wwise_sound_id := h.wwise_sound_id
  angle_sounds_used := h.angle_sounds_used
  frame_count := h.frame_count
  angle_count := h.angle_count
  speed_multiplier := h.speed_multiplier
  frame_duration := h.frame_duration
  replay_delay := h.replay_delay
  sequence_type := h.sequence_type
  id := h.id
  mirroring_mode := h.mirroring_mode
  editor_flag := h.editor_flag
  deltas := h.deltas.imp GraphicDelta.wfv
  angle_sounds := ⟨h.angle_sounds.1.imp GraphicAngleSound.wfv, h.angle_sounds.2⟩

theorem TerrainRestriction.wfv {v w : Version} {n : Nat} {x : TerrainRestriction} (h : TerrainRestriction.WF v n x) : TerrainRestriction.WF w n x where
  passable_buildable_dmg_multiplier := h.passable_buildable_dmg_multiplier
  terrain_pass_graphics := h.terrain_pass_graphics.imp TerrainPassGraphic.wfv

end Genie
