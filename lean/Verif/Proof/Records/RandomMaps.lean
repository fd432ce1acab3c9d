import Verif.Proof.Containers
import Verif.Spec.Records
/-! # Write-read and read-write lemmas of the plain records (RandomMaps); generated by `tools/gen_records.py` -/

namespace Genie

theorem MapUnit.rw {v : Version} {x : MapUnit} (h : MapUnit.WF v x) :
    RW v MapUnit.fromBytes (MapUnit.toBytes v x) x := by
  obtain ⟨x_unit, x_host_terrain, x_group_placing, x_scale_flag, x_padding_1, x_objects_per_group, x_fluctuation, x_groups_per_player, x_group_arena, x_player_id, x_set_place_for_all_players, x_min_distance_to_players, x_max_distance_to_players⟩ := x
  obtain ⟨h_unit, h_host_terrain, h_group_placing, h_scale_flag, h_padding_1, h_objects_per_group, h_fluctuation, h_groups_per_player, h_group_arena, h_player_id, h_set_place_for_all_players, h_min_distance_to_players, h_max_distance_to_players⟩ := h
  dsimp only at h_unit h_host_terrain h_group_placing h_scale_flag h_padding_1 h_objects_per_group h_fluctuation h_groups_per_player h_group_arena h_player_id h_set_place_for_all_players h_min_distance_to_players h_max_distance_to_players
  unfold MapUnit.fromBytes MapUnit.toBytes
  refine RW.bind (RW.int32 h_unit) ?_
  refine RW.bind (RW.int32 h_host_terrain) ?_
  refine RW.bind (RW.int8 h_group_placing) ?_
  refine RW.bind (RW.int8 h_scale_flag) ?_
  refine RW.bind (RW.int16 h_padding_1) ?_
  refine RW.bind (RW.int32 h_objects_per_group) ?_
  refine RW.bind (RW.int32 h_fluctuation) ?_
  refine RW.bind (RW.int32 h_groups_per_player) ?_
  refine RW.bind (RW.int32 h_group_arena) ?_
  refine RW.bind (RW.int32 h_player_id) ?_
  refine RW.bind (RW.int32 h_set_place_for_all_players) ?_
  refine RW.bind (RW.int32 h_min_distance_to_players) ?_
  refine RW.bind (RW.int32 h_max_distance_to_players) ?_
  exact RW.pure rfl

theorem MapUnit.good (v : Version) :
    Good v MapUnit.fromBytes (MapUnit.WF v) (fun x bs => MapUnit.toBytes v x = .ok bs) := by
  unfold MapUnit.fromBytes
  refine Good.bind Good.int32 fun unit h_unit => ?_
  refine Good.bind Good.int32 fun host_terrain h_host_terrain => ?_
  refine Good.bind Good.int8 fun group_placing h_group_placing => ?_
  refine Good.bind Good.int8 fun scale_flag h_scale_flag => ?_
  refine Good.bind Good.int16 fun padding_1 h_padding_1 => ?_
  refine Good.bind Good.int32 fun objects_per_group h_objects_per_group => ?_
  refine Good.bind Good.int32 fun fluctuation h_fluctuation => ?_
  refine Good.bind Good.int32 fun groups_per_player h_groups_per_player => ?_
  refine Good.bind Good.int32 fun group_arena h_group_arena => ?_
  refine Good.bind Good.int32 fun player_id h_player_id => ?_
  refine Good.bind Good.int32 fun set_place_for_all_players h_set_place_for_all_players => ?_
  refine Good.bind Good.int32 fun min_distance_to_players h_min_distance_to_players => ?_
  refine Good.bind Good.int32 fun max_distance_to_players h_max_distance_to_players => ?_
  refine Good.pure ⟨h_unit, h_host_terrain, h_group_placing, h_scale_flag, h_padding_1, h_objects_per_group, h_fluctuation, h_groups_per_player, h_group_arena, h_player_id, h_set_place_for_all_players, h_min_distance_to_players, h_max_distance_to_players⟩ ?_
  rintro b12 k12 b11 k11 b10 k10 b9 k9 b8 k8 b7 k7 b6 k6 b5 k5 b4 k4 b3 k3 b2 k2 b1 k1 b0 k0
  unfold MapUnit.toBytes
  exact joinB_cons_ok k0 (joinB_cons_ok k1 (joinB_cons_ok k2 (joinB_cons_ok k3 (joinB_cons_ok k4 (joinB_cons_ok k5 (joinB_cons_ok k6 (joinB_cons_ok k7 (joinB_cons_ok k8 (joinB_cons_ok k9 (joinB_cons_ok k10 (joinB_cons_ok k11 (joinB_cons_ok k12 rfl))))))))))))

theorem MapTerrain.rw {v : Version} {x : MapTerrain} (h : MapTerrain.WF v x) :
    RW v MapTerrain.fromBytes (MapTerrain.toBytes v x) x := by
  obtain ⟨x_proportion, x_terrain, x_clump_count, x_edge_spacing, x_placement_terrain, x_clumpiness⟩ := x
  obtain ⟨h_proportion, h_terrain, h_clump_count, h_edge_spacing, h_placement_terrain, h_clumpiness⟩ := h
  dsimp only at h_proportion h_terrain h_clump_count h_edge_spacing h_placement_terrain h_clumpiness
  unfold MapTerrain.fromBytes MapTerrain.toBytes
  refine RW.bind (RW.int32 h_proportion) ?_
  refine RW.bind (RW.int32 h_terrain) ?_
  refine RW.bind (RW.int32 h_clump_count) ?_
  refine RW.bind (RW.int32 h_edge_spacing) ?_
  refine RW.bind (RW.int32 h_placement_terrain) ?_
  refine RW.bind (RW.int32 h_clumpiness) ?_
  exact RW.pure rfl

theorem MapTerrain.good (v : Version) :
    Good v MapTerrain.fromBytes (MapTerrain.WF v) (fun x bs => MapTerrain.toBytes v x = .ok bs) := by
  unfold MapTerrain.fromBytes
  refine Good.bind Good.int32 fun proportion h_proportion => ?_
  refine Good.bind Good.int32 fun terrain h_terrain => ?_
  refine Good.bind Good.int32 fun clump_count h_clump_count => ?_
  refine Good.bind Good.int32 fun edge_spacing h_edge_spacing => ?_
  refine Good.bind Good.int32 fun placement_terrain h_placement_terrain => ?_
  refine Good.bind Good.int32 fun clumpiness h_clumpiness => ?_
  refine Good.pure ⟨h_proportion, h_terrain, h_clump_count, h_edge_spacing, h_placement_terrain, h_clumpiness⟩ ?_
  rintro b5 k5 b4 k4 b3 k3 b2 k2 b1 k1 b0 k0
  unfold MapTerrain.toBytes
  exact joinB_cons_ok k0 (joinB_cons_ok k1 (joinB_cons_ok k2 (joinB_cons_ok k3 (joinB_cons_ok k4 (joinB_cons_ok k5 rfl)))))

theorem MapLand.rw {v : Version} {x : MapLand} (h : MapLand.WF v x) :
    RW v MapLand.fromBytes (MapLand.toBytes v x) x := by
  obtain ⟨x_land_id, x_terrain, x_land_spacing, x_base_size, x_zone, x_placement_type, x_padding_1, x_base_x, x_base_y, x_land_proportion, x_by_player_flag, x_padding_2, x_start_area_radius, x_terrain_edge_fade, x_clumpiness⟩ := x
  obtain ⟨h_land_id, h_terrain, h_land_spacing, h_base_size, h_zone, h_placement_type, h_padding_1, h_base_x, h_base_y, h_land_proportion, h_by_player_flag, h_padding_2, h_start_area_radius, h_terrain_edge_fade, h_clumpiness⟩ := h
  dsimp only at h_land_id h_terrain h_land_spacing h_base_size h_zone h_placement_type h_padding_1 h_base_x h_base_y h_land_proportion h_by_player_flag h_padding_2 h_start_area_radius h_terrain_edge_fade h_clumpiness
  unfold MapLand.fromBytes MapLand.toBytes
  refine RW.bind (RW.int32 h_land_id) ?_
  refine RW.bind (RW.uint32 h_terrain) ?_
  refine RW.bind (RW.int32 h_land_spacing) ?_
  refine RW.bind (RW.int32 h_base_size) ?_
  refine RW.bind (RW.int8 h_zone) ?_
  refine RW.bind (RW.int8 h_placement_type) ?_
  refine RW.bind (RW.int16 h_padding_1) ?_
  refine RW.bind (RW.int32 h_base_x) ?_
  refine RW.bind (RW.int32 h_base_y) ?_
  refine RW.bind (RW.int8 h_land_proportion) ?_
  refine RW.bind (RW.int8 h_by_player_flag) ?_
  refine RW.bind (RW.int16 h_padding_2) ?_
  refine RW.bind (RW.int32 h_start_area_radius) ?_
  refine RW.bind (RW.int32 h_terrain_edge_fade) ?_
  refine RW.bind (RW.int32 h_clumpiness) ?_
  exact RW.pure rfl

theorem MapLand.good (v : Version) :
    Good v MapLand.fromBytes (MapLand.WF v) (fun x bs => MapLand.toBytes v x = .ok bs) := by
  unfold MapLand.fromBytes
  refine Good.bind Good.int32 fun land_id h_land_id => ?_
  refine Good.bind Good.uint32 fun terrain h_terrain => ?_
  refine Good.bind Good.int32 fun land_spacing h_land_spacing => ?_
  refine Good.bind Good.int32 fun base_size h_base_size => ?_
  refine Good.bind Good.int8 fun zone h_zone => ?_
  refine Good.bind Good.int8 fun placement_type h_placement_type => ?_
  refine Good.bind Good.int16 fun padding_1 h_padding_1 => ?_
  refine Good.bind Good.int32 fun base_x h_base_x => ?_
  refine Good.bind Good.int32 fun base_y h_base_y => ?_
  refine Good.bind Good.int8 fun land_proportion h_land_proportion => ?_
  refine Good.bind Good.int8 fun by_player_flag h_by_player_flag => ?_
  refine Good.bind Good.int16 fun padding_2 h_padding_2 => ?_
  refine Good.bind Good.int32 fun start_area_radius h_start_area_radius => ?_
  refine Good.bind Good.int32 fun terrain_edge_fade h_terrain_edge_fade => ?_
  refine Good.bind Good.int32 fun clumpiness h_clumpiness => ?_
  refine Good.pure ⟨h_land_id, h_terrain, h_land_spacing, h_base_size, h_zone, h_placement_type, h_padding_1, h_base_x, h_base_y, h_land_proportion, h_by_player_flag, h_padding_2, h_start_area_radius, h_terrain_edge_fade, h_clumpiness⟩ ?_
  rintro b14 k14 b13 k13 b12 k12 b11 k11 b10 k10 b9 k9 b8 k8 b7 k7 b6 k6 b5 k5 b4 k4 b3 k3 b2 k2 b1 k1 b0 k0
  unfold MapLand.toBytes
  exact joinB_cons_ok k0 (joinB_cons_ok k1 (joinB_cons_ok k2 (joinB_cons_ok k3 (joinB_cons_ok k4 (joinB_cons_ok k5 (joinB_cons_ok k6 (joinB_cons_ok k7 (joinB_cons_ok k8 (joinB_cons_ok k9 (joinB_cons_ok k10 (joinB_cons_ok k11 (joinB_cons_ok k12 (joinB_cons_ok k13 (joinB_cons_ok k14 rfl))))))))))))))

theorem MapElevation.rw {v : Version} {x : MapElevation} (h : MapElevation.WF v x) :
    RW v MapElevation.fromBytes (MapElevation.toBytes v x) x := by
  obtain ⟨x_proportion, x_terrain, x_clump_count, x_base_terrain, x_base_elevation, x_tile_spacing⟩ := x
  obtain ⟨h_proportion, h_terrain, h_clump_count, h_base_terrain, h_base_elevation, h_tile_spacing⟩ := h
  dsimp only at h_proportion h_terrain h_clump_count h_base_terrain h_base_elevation h_tile_spacing
  unfold MapElevation.fromBytes MapElevation.toBytes
  refine RW.bind (RW.int32 h_proportion) ?_
  refine RW.bind (RW.int32 h_terrain) ?_
  refine RW.bind (RW.int32 h_clump_count) ?_
  refine RW.bind (RW.int32 h_base_terrain) ?_
  refine RW.bind (RW.int32 h_base_elevation) ?_
  refine RW.bind (RW.int32 h_tile_spacing) ?_
  exact RW.pure rfl

theorem MapElevation.good (v : Version) :
    Good v MapElevation.fromBytes (MapElevation.WF v) (fun x bs => MapElevation.toBytes v x = .ok bs) := by
  unfold MapElevation.fromBytes
  refine Good.bind Good.int32 fun proportion h_proportion => ?_
  refine Good.bind Good.int32 fun terrain h_terrain => ?_
  refine Good.bind Good.int32 fun clump_count h_clump_count => ?_
  refine Good.bind Good.int32 fun base_terrain h_base_terrain => ?_
  refine Good.bind Good.int32 fun base_elevation h_base_elevation => ?_
  refine Good.bind Good.int32 fun tile_spacing h_tile_spacing => ?_
  refine Good.pure ⟨h_proportion, h_terrain, h_clump_count, h_base_terrain, h_base_elevation, h_tile_spacing⟩ ?_
  rintro b5 k5 b4 k4 b3 k3 b2 k2 b1 k1 b0 k0
  unfold MapElevation.toBytes
  exact joinB_cons_ok k0 (joinB_cons_ok k1 (joinB_cons_ok k2 (joinB_cons_ok k3 (joinB_cons_ok k4 (joinB_cons_ok k5 rfl)))))

theorem MapInfo.rw {v : Version} {x : MapInfo} (h : MapInfo.WF v x) :
    RW v MapInfo.fromBytes (MapInfo.toBytes v x) x := by
  obtain ⟨x_map_id, x_border_south_west, x_border_north_west, x_border_north_east, x_border_south_east, x_border_usage, x_water_shape, x_base_terrain, x_land_coverage, x_unused_id, x_map_lands_size, x_map_lands_ptr, x_map_lands, x_map_terrains_size, x_map_terrains_ptr, x_map_terrains, x_map_units_size, x_map_units_ptr, x_map_units, x_map_elevations_size, x_map_elevations_ptr, x_map_elevations⟩ := x
  obtain ⟨h_map_id, h_border_south_west, h_border_north_west, h_border_north_east, h_border_south_east, h_border_usage, h_water_shape, h_base_terrain, h_land_coverage, h_unused_id, h_map_lands_size, h_map_lands_ptr, h_map_lands, h_map_terrains_size, h_map_terrains_ptr, h_map_terrains, h_map_units_size, h_map_units_ptr, h_map_units, h_map_elevations_size, h_map_elevations_ptr, h_map_elevations⟩ := h
  dsimp only at h_map_id h_border_south_west h_border_north_west h_border_north_east h_border_south_east h_border_usage h_water_shape h_base_terrain h_land_coverage h_unused_id h_map_lands_size h_map_lands_ptr h_map_lands h_map_terrains_size h_map_terrains_ptr h_map_terrains h_map_units_size h_map_units_ptr h_map_units h_map_elevations_size h_map_elevations_ptr h_map_elevations
  unfold MapInfo.fromBytes MapInfo.toBytes
  refine RW.bind (RW.int32 h_map_id) ?_
  refine RW.bind (RW.int32 h_border_south_west) ?_
  refine RW.bind (RW.int32 h_border_north_west) ?_
  refine RW.bind (RW.int32 h_border_north_east) ?_
  refine RW.bind (RW.int32 h_border_south_east) ?_
  refine RW.bind (RW.int32 h_border_usage) ?_
  refine RW.bind (RW.int32 h_water_shape) ?_
  refine RW.bind (RW.int32 h_base_terrain) ?_
  refine RW.bind (RW.int32 h_land_coverage) ?_
  refine RW.bind (RW.int32 h_unused_id) ?_
  subst h_map_lands_size
  refine RW.bind (RW.uint32 (isU32_len h_map_lands.1)) ?_
  refine RW.bind (RW.int32 h_map_lands_ptr) ?_
  refine RW.bind (RW.classArray rfl fun y hy => MapLand.rw (h_map_lands.2 y hy)) ?_
  subst h_map_terrains_size
  refine RW.bind (RW.uint32 (isU32_len h_map_terrains.1)) ?_
  refine RW.bind (RW.int32 h_map_terrains_ptr) ?_
  refine RW.bind (RW.classArray rfl fun y hy => MapTerrain.rw (h_map_terrains.2 y hy)) ?_
  subst h_map_units_size
  refine RW.bind (RW.uint32 (isU32_len h_map_units.1)) ?_
  refine RW.bind (RW.int32 h_map_units_ptr) ?_
  refine RW.bind (RW.classArray rfl fun y hy => MapUnit.rw (h_map_units.2 y hy)) ?_
  subst h_map_elevations_size
  refine RW.bind (RW.uint32 (isU32_len h_map_elevations.1)) ?_
  refine RW.bind (RW.int32 h_map_elevations_ptr) ?_
  refine RW.bind (RW.classArray rfl fun y hy => MapElevation.rw (h_map_elevations.2 y hy)) ?_
  exact RW.pure rfl

theorem MapInfo.good (v : Version) :
    Good v MapInfo.fromBytes (MapInfo.WF v) (fun x bs => MapInfo.toBytes v x = .ok bs) := by
  unfold MapInfo.fromBytes
  refine Good.bind Good.int32 fun map_id h_map_id => ?_
  refine Good.bind Good.int32 fun border_south_west h_border_south_west => ?_
  refine Good.bind Good.int32 fun border_north_west h_border_north_west => ?_
  refine Good.bind Good.int32 fun border_north_east h_border_north_east => ?_
  refine Good.bind Good.int32 fun border_south_east h_border_south_east => ?_
  refine Good.bind Good.int32 fun border_usage h_border_usage => ?_
  refine Good.bind Good.int32 fun water_shape h_water_shape => ?_
  refine Good.bind Good.int32 fun base_terrain h_base_terrain => ?_
  refine Good.bind Good.int32 fun land_coverage h_land_coverage => ?_
  refine Good.bind Good.int32 fun unused_id h_unused_id => ?_
  refine Good.bind Good.uint32 fun map_lands_size h_map_lands_size => ?_
  refine Good.bind Good.int32 fun map_lands_ptr h_map_lands_ptr => ?_
  refine Good.bind (Good.classArray _ (MapLand.good v)) fun map_lands h_map_lands => ?_
  refine Good.bind Good.uint32 fun map_terrains_size h_map_terrains_size => ?_
  refine Good.bind Good.int32 fun map_terrains_ptr h_map_terrains_ptr => ?_
  refine Good.bind (Good.classArray _ (MapTerrain.good v)) fun map_terrains h_map_terrains => ?_
  refine Good.bind Good.uint32 fun map_units_size h_map_units_size => ?_
  refine Good.bind Good.int32 fun map_units_ptr h_map_units_ptr => ?_
  refine Good.bind (Good.classArray _ (MapUnit.good v)) fun map_units h_map_units => ?_
  refine Good.bind Good.uint32 fun map_elevations_size h_map_elevations_size => ?_
  refine Good.bind Good.int32 fun map_elevations_ptr h_map_elevations_ptr => ?_
  refine Good.bind (Good.classArray _ (MapElevation.good v)) fun map_elevations h_map_elevations => ?_
  refine Good.pure ⟨h_map_id, h_border_south_west, h_border_north_west, h_border_north_east, h_border_south_east, h_border_usage, h_water_shape, h_base_terrain, h_land_coverage, h_unused_id, by have := h_map_lands.1; unfold IsU32 at h_map_lands_size; dsimp only; omega, h_map_lands_ptr, upTo_u32 h_map_lands_size h_map_lands, by have := h_map_terrains.1; unfold IsU32 at h_map_terrains_size; dsimp only; omega, h_map_terrains_ptr, upTo_u32 h_map_terrains_size h_map_terrains, by have := h_map_units.1; unfold IsU32 at h_map_units_size; dsimp only; omega, h_map_units_ptr, upTo_u32 h_map_units_size h_map_units, by have := h_map_elevations.1; unfold IsU32 at h_map_elevations_size; dsimp only; omega, h_map_elevations_ptr, upTo_u32 h_map_elevations_size h_map_elevations⟩ ?_
  rintro b21 ⟨rfl, k21⟩ b20 k20 b19 k19 b18 ⟨rfl, k18⟩ b17 k17 b16 k16 b15 ⟨rfl, k15⟩ b14 k14 b13 k13 b12 ⟨rfl, k12⟩ b11 k11 b10 k10 b9 k9 b8 k8 b7 k7 b6 k6 b5 k5 b4 k4 b3 k3 b2 k2 b1 k1 b0 k0
  unfold MapInfo.toBytes
  exact joinB_cons_ok k0 (joinB_cons_ok k1 (joinB_cons_ok k2 (joinB_cons_ok k3 (joinB_cons_ok k4 (joinB_cons_ok k5 (joinB_cons_ok k6 (joinB_cons_ok k7 (joinB_cons_ok k8 (joinB_cons_ok k9 (joinB_cons_ok k10 (joinB_cons_ok k11 (joinB_cons_ok k12 (joinB_cons_ok k13 (joinB_cons_ok k14 (joinB_cons_ok k15 (joinB_cons_ok k16 (joinB_cons_ok k17 (joinB_cons_ok k18 (joinB_cons_ok k19 (joinB_cons_ok k20 (joinB_cons_ok k21 rfl)))))))))))))))))))))

theorem RandomMaps.rw {v : Version} {x : RandomMaps} (h : RandomMaps.WF v x) :
    RW v RandomMaps.fromBytes (RandomMaps.toBytes v x) x := by
  obtain ⟨x_random_maps_ptr, x_map_info_1, x_map_info_2⟩ := x
  obtain ⟨h_random_maps_ptr, h_map_info_1, h_map_info_2⟩ := h
  dsimp only at h_random_maps_ptr h_map_info_1 h_map_info_2
  unfold RandomMaps.fromBytes RandomMaps.toBytes
  rw [if_neg (by dsimp only; rw [h_map_info_2.1]; simp)]
  refine RW.bind (RW.uint32 (isU32_len h_map_info_1.1)) ?_
  refine RW.bind (RW.int32 h_random_maps_ptr) ?_
  refine RW.bind (RW.classArray rfl fun y hy => MapInfo.rw (h_map_info_1.2 y hy)) ?_
  refine RW.bind (RW.classArray (by rw [h_map_info_2.1]) fun y hy => MapInfo.rw (h_map_info_2.2 y hy)) ?_
  exact RW.pure rfl

theorem RandomMaps.good (v : Version) :
    Good v RandomMaps.fromBytes (RandomMaps.WF v) (fun x bs => RandomMaps.toBytes v x = .ok bs) := by
  unfold RandomMaps.fromBytes
  refine Good.bind Good.uint32 fun random_map_count h_random_map_count => ?_
  refine Good.bind Good.int32 fun random_maps_ptr h_random_maps_ptr => ?_
  refine Good.bind (Good.classArray _ (MapInfo.good v)) fun map_info_1 h_map_info_1 => ?_
  refine Good.bind (Good.classArray _ (MapInfo.good v)) fun map_info_2 h_map_info_2 => ?_
  refine Good.pure ⟨h_random_maps_ptr, upTo_u32 h_random_map_count h_map_info_1, ⟨h_map_info_2.1.trans h_map_info_1.1.symm, h_map_info_2.2⟩⟩ ?_
  rintro b3 ⟨l3, k3⟩ b2 ⟨rfl, k2⟩ b1 k1 b0 k0
  unfold RandomMaps.toBytes
  rw [if_neg (by dsimp only; omega)]
  exact joinB_cons_ok k0 (joinB_cons_ok k1 (joinB_cons_ok k2 (joinB_cons_ok k3 rfl)))

end Genie
