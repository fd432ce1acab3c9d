import Verif.Proof.Lax
/-! # The records, item by item: the plain ones (obtained from the proofs of `X.good` by textual substitution) -/

namespace Genie

theorem EffectCommand.lax (v : Version) :
    Lax v EffectCommand.fromBytes (fun _ => True) (fun x bs => ReadAsM (EffectCommand.layout v x) bs) := by
  unfold EffectCommand.fromBytes
  refine Lax.bind Lax.int8 fun type h_type => ?_
  refine Lax.bind Lax.int16 fun a h_a => ?_
  refine Lax.bind Lax.int16 fun b h_b => ?_
  refine Lax.bind Lax.int16 fun c h_c => ?_
  refine Lax.bind Lax.float fun d h_d => ?_
  refine Lax.pure trivial ?_
  intro b4 k4 b3 k3 b2 k2 b1 k1 b0 k0
  unfold EffectCommand.layout
  exact ReadAsM.cons (by first | exact k0.int | exact k0.count (by assumption)) (.cons (by first | exact k1.int | exact k1.count (by assumption)) (.cons (by first | exact k2.int | exact k2.count (by assumption)) (.cons (by first | exact k3.int | exact k3.count (by assumption)) (.cons k4 ReadAsM.nil))))

theorem Effect.lax (v : Version) :
    Lax v Effect.fromBytes (fun _ => True) (fun x bs => ReadAsM (Effect.layout v x) bs) := by
  unfold Effect.fromBytes
  refine Lax.bind Lax.debugString fun name h_name => ?_
  refine Lax.bind Lax.int16 fun effect_command_count h_effect_command_count => ?_
  refine Lax.bind (Lax.classArray _ (EffectCommand.lax v)) fun effect_commands h_effect_commands => ?_
  refine Lax.pure trivial ?_
  intro b2 k2 b1 k1 b0 k0
  unfold Effect.layout
  exact ReadAsM.cons k0 (.cons (by first | exact k1.int | exact k1.count (by assumption)) (.cons k2 ReadAsM.nil))

theorem SoundItem.lax (v : Version) :
    Lax v SoundItem.fromBytes (fun _ => True) (fun x bs => ReadAsM (SoundItem.layout v x) bs) := by
  unfold SoundItem.fromBytes
  refine Lax.bind Lax.debugString fun filename h_filename => ?_
  refine Lax.bind Lax.int32 fun resource_id h_resource_id => ?_
  refine Lax.bind Lax.int16 fun probability h_probability => ?_
  refine Lax.bind Lax.int16 fun civilization h_civilization => ?_
  refine Lax.bind Lax.int16 fun icon_set h_icon_set => ?_
  refine Lax.pure trivial ?_
  intro b4 k4 b3 k3 b2 k2 b1 k1 b0 k0
  unfold SoundItem.layout
  exact ReadAsM.cons k0 (.cons (by first | exact k1.int | exact k1.count (by assumption)) (.cons (by first | exact k2.int | exact k2.count (by assumption)) (.cons (by first | exact k3.int | exact k3.count (by assumption)) (.cons (by first | exact k4.int | exact k4.count (by assumption)) ReadAsM.nil))))

theorem Sound.lax (v : Version) :
    Lax v Sound.fromBytes (fun _ => True) (fun x bs => ReadAsM (Sound.layout v x) bs) := by
  unfold Sound.fromBytes
  refine Lax.bind Lax.int16 fun id_ h_id_ => ?_
  refine Lax.bind Lax.int16 fun play_delay h_play_delay => ?_
  refine Lax.bind Lax.int16 fun items_size h_items_size => ?_
  refine Lax.bind Lax.int32 fun cache_time h_cache_time => ?_
  refine Lax.bind Lax.int16 fun total_probability h_total_probability => ?_
  refine Lax.bind (Lax.classArray _ (SoundItem.lax v)) fun items h_items => ?_
  refine Lax.pure trivial ?_
  intro b5 k5 b4 k4 b3 k3 b2 k2 b1 k1 b0 k0
  unfold Sound.layout
  exact ReadAsM.cons (by first | exact k0.int | exact k0.count (by assumption)) (.cons (by first | exact k1.int | exact k1.count (by assumption)) (.cons (by first | exact k2.int | exact k2.count (by assumption)) (.cons (by first | exact k3.int | exact k3.count (by assumption)) (.cons (by first | exact k4.int | exact k4.count (by assumption)) (.cons k5 ReadAsM.nil)))))

theorem PlayerColour.lax (v : Version) :
    Lax v PlayerColour.fromBytes (fun _ => True) (fun x bs => ReadAsM (PlayerColour.layout v x) bs) := by
  unfold PlayerColour.fromBytes
  refine Lax.bind Lax.int32 fun id h_id => ?_
  refine Lax.bind Lax.int32 fun player_color_base h_player_color_base => ?_
  refine Lax.bind Lax.int32 fun unit_outline_color h_unit_outline_color => ?_
  refine Lax.bind Lax.int32 fun unit_selection_color_1 h_unit_selection_color_1 => ?_
  refine Lax.bind Lax.int32 fun unit_selection_color_2 h_unit_selection_color_2 => ?_
  refine Lax.bind Lax.int32 fun minimap_color h_minimap_color => ?_
  refine Lax.bind Lax.int32 fun minimap_color_2 h_minimap_color_2 => ?_
  refine Lax.bind Lax.int32 fun minimap_color_3 h_minimap_color_3 => ?_
  refine Lax.bind Lax.int32 fun statistics_text h_statistics_text => ?_
  refine Lax.pure trivial ?_
  intro b8 k8 b7 k7 b6 k6 b5 k5 b4 k4 b3 k3 b2 k2 b1 k1 b0 k0
  unfold PlayerColour.layout
  exact ReadAsM.cons (by first | exact k0.int | exact k0.count (by assumption)) (.cons (by first | exact k1.int | exact k1.count (by assumption)) (.cons (by first | exact k2.int | exact k2.count (by assumption)) (.cons (by first | exact k3.int | exact k3.count (by assumption)) (.cons (by first | exact k4.int | exact k4.count (by assumption)) (.cons (by first | exact k5.int | exact k5.count (by assumption)) (.cons (by first | exact k6.int | exact k6.count (by assumption)) (.cons (by first | exact k7.int | exact k7.count (by assumption)) (.cons (by first | exact k8.int | exact k8.count (by assumption)) ReadAsM.nil))))))))

theorem GraphicDelta.lax (v : Version) :
    Lax v GraphicDelta.fromBytes (fun _ => True) (fun x bs => ReadAsM (GraphicDelta.layout v x) bs) := by
  unfold GraphicDelta.fromBytes
  refine Lax.bind Lax.int16 fun graphic_id h_graphic_id => ?_
  refine Lax.bind Lax.int16 fun padding_1 h_padding_1 => ?_
  refine Lax.bind Lax.int32 fun sprite_ptr h_sprite_ptr => ?_
  refine Lax.bind Lax.int16 fun offset_x h_offset_x => ?_
  refine Lax.bind Lax.int16 fun offset_y h_offset_y => ?_
  refine Lax.bind Lax.int16 fun display_angle h_display_angle => ?_
  refine Lax.bind Lax.int16 fun padding_2 h_padding_2 => ?_
  refine Lax.pure trivial ?_
  intro b6 k6 b5 k5 b4 k4 b3 k3 b2 k2 b1 k1 b0 k0
  unfold GraphicDelta.layout
  exact ReadAsM.cons (by first | exact k0.int | exact k0.count (by assumption)) (.cons (by first | exact k1.int | exact k1.count (by assumption)) (.cons (by first | exact k2.int | exact k2.count (by assumption)) (.cons (by first | exact k3.int | exact k3.count (by assumption)) (.cons (by first | exact k4.int | exact k4.count (by assumption)) (.cons (by first | exact k5.int | exact k5.count (by assumption)) (.cons (by first | exact k6.int | exact k6.count (by assumption)) ReadAsM.nil))))))

theorem GraphicAngleSound.lax (v : Version) :
    Lax v GraphicAngleSound.fromBytes (fun _ => True) (fun x bs => ReadAsM (GraphicAngleSound.layout v x) bs) := by
  unfold GraphicAngleSound.fromBytes
  refine Lax.bind Lax.int16 fun frame_num h_frame_num => ?_
  refine Lax.bind Lax.int16 fun sound_id h_sound_id => ?_
  refine Lax.bind Lax.int32 fun wwise_sound_id h_wwise_sound_id => ?_
  refine Lax.bind Lax.int16 fun frame_num_2 h_frame_num_2 => ?_
  refine Lax.bind Lax.int16 fun sound_id_2 h_sound_id_2 => ?_
  refine Lax.bind Lax.int32 fun wwise_sound_id_2 h_wwise_sound_id_2 => ?_
  refine Lax.bind Lax.int16 fun frame_num_3 h_frame_num_3 => ?_
  refine Lax.bind Lax.int16 fun sound_id_3 h_sound_id_3 => ?_
  refine Lax.bind Lax.int32 fun wwise_sound_id_3 h_wwise_sound_id_3 => ?_
  refine Lax.pure trivial ?_
  intro b8 k8 b7 k7 b6 k6 b5 k5 b4 k4 b3 k3 b2 k2 b1 k1 b0 k0
  unfold GraphicAngleSound.layout
  exact ReadAsM.cons (by first | exact k0.int | exact k0.count (by assumption)) (.cons (by first | exact k1.int | exact k1.count (by assumption)) (.cons (by first | exact k2.int | exact k2.count (by assumption)) (.cons (by first | exact k3.int | exact k3.count (by assumption)) (.cons (by first | exact k4.int | exact k4.count (by assumption)) (.cons (by first | exact k5.int | exact k5.count (by assumption)) (.cons (by first | exact k6.int | exact k6.count (by assumption)) (.cons (by first | exact k7.int | exact k7.count (by assumption)) (.cons (by first | exact k8.int | exact k8.count (by assumption)) ReadAsM.nil))))))))

theorem TerrainPassGraphic.lax (v : Version) :
    Lax v TerrainPassGraphic.fromBytes (fun _ => True) (fun x bs => ReadAsM (TerrainPassGraphic.layout v x) bs) := by
  unfold TerrainPassGraphic.fromBytes
  refine Lax.bind Lax.int32 fun exit_tile_sprite_id h_exit_tile_sprite_id => ?_
  refine Lax.bind Lax.int32 fun enter_tile_sprite_id h_enter_tile_sprite_id => ?_
  refine Lax.bind Lax.int32 fun walk_tile_sprite_id h_walk_tile_sprite_id => ?_
  refine Lax.bind Lax.int32 fun walk_sprite_rate h_walk_sprite_rate => ?_
  refine Lax.pure trivial ?_
  intro b3 k3 b2 k2 b1 k1 b0 k0
  unfold TerrainPassGraphic.layout
  exact ReadAsM.cons (by first | exact k0.int | exact k0.count (by assumption)) (.cons (by first | exact k1.int | exact k1.count (by assumption)) (.cons (by first | exact k2.int | exact k2.count (by assumption)) (.cons (by first | exact k3.int | exact k3.count (by assumption)) ReadAsM.nil)))

theorem MapUnit.lax (v : Version) :
    Lax v MapUnit.fromBytes (fun _ => True) (fun x bs => ReadAsM (MapUnit.layout v x) bs) := by
  unfold MapUnit.fromBytes
  refine Lax.bind Lax.int32 fun unit h_unit => ?_
  refine Lax.bind Lax.int32 fun host_terrain h_host_terrain => ?_
  refine Lax.bind Lax.int8 fun group_placing h_group_placing => ?_
  refine Lax.bind Lax.int8 fun scale_flag h_scale_flag => ?_
  refine Lax.bind Lax.int16 fun padding_1 h_padding_1 => ?_
  refine Lax.bind Lax.int32 fun objects_per_group h_objects_per_group => ?_
  refine Lax.bind Lax.int32 fun fluctuation h_fluctuation => ?_
  refine Lax.bind Lax.int32 fun groups_per_player h_groups_per_player => ?_
  refine Lax.bind Lax.int32 fun group_arena h_group_arena => ?_
  refine Lax.bind Lax.int32 fun player_id h_player_id => ?_
  refine Lax.bind Lax.int32 fun set_place_for_all_players h_set_place_for_all_players => ?_
  refine Lax.bind Lax.int32 fun min_distance_to_players h_min_distance_to_players => ?_
  refine Lax.bind Lax.int32 fun max_distance_to_players h_max_distance_to_players => ?_
  refine Lax.pure trivial ?_
  intro b12 k12 b11 k11 b10 k10 b9 k9 b8 k8 b7 k7 b6 k6 b5 k5 b4 k4 b3 k3 b2 k2 b1 k1 b0 k0
  unfold MapUnit.layout
  exact ReadAsM.cons (by first | exact k0.int | exact k0.count (by assumption)) (.cons (by first | exact k1.int | exact k1.count (by assumption)) (.cons (by first | exact k2.int | exact k2.count (by assumption)) (.cons (by first | exact k3.int | exact k3.count (by assumption)) (.cons (by first | exact k4.int | exact k4.count (by assumption)) (.cons (by first | exact k5.int | exact k5.count (by assumption)) (.cons (by first | exact k6.int | exact k6.count (by assumption)) (.cons (by first | exact k7.int | exact k7.count (by assumption)) (.cons (by first | exact k8.int | exact k8.count (by assumption)) (.cons (by first | exact k9.int | exact k9.count (by assumption)) (.cons (by first | exact k10.int | exact k10.count (by assumption)) (.cons (by first | exact k11.int | exact k11.count (by assumption)) (.cons (by first | exact k12.int | exact k12.count (by assumption)) ReadAsM.nil))))))))))))

theorem MapTerrain.lax (v : Version) :
    Lax v MapTerrain.fromBytes (fun _ => True) (fun x bs => ReadAsM (MapTerrain.layout v x) bs) := by
  unfold MapTerrain.fromBytes
  refine Lax.bind Lax.int32 fun proportion h_proportion => ?_
  refine Lax.bind Lax.int32 fun terrain h_terrain => ?_
  refine Lax.bind Lax.int32 fun clump_count h_clump_count => ?_
  refine Lax.bind Lax.int32 fun edge_spacing h_edge_spacing => ?_
  refine Lax.bind Lax.int32 fun placement_terrain h_placement_terrain => ?_
  refine Lax.bind Lax.int32 fun clumpiness h_clumpiness => ?_
  refine Lax.pure trivial ?_
  intro b5 k5 b4 k4 b3 k3 b2 k2 b1 k1 b0 k0
  unfold MapTerrain.layout
  exact ReadAsM.cons (by first | exact k0.int | exact k0.count (by assumption)) (.cons (by first | exact k1.int | exact k1.count (by assumption)) (.cons (by first | exact k2.int | exact k2.count (by assumption)) (.cons (by first | exact k3.int | exact k3.count (by assumption)) (.cons (by first | exact k4.int | exact k4.count (by assumption)) (.cons (by first | exact k5.int | exact k5.count (by assumption)) ReadAsM.nil)))))

theorem MapLand.lax (v : Version) :
    Lax v MapLand.fromBytes (fun _ => True) (fun x bs => ReadAsM (MapLand.layout v x) bs) := by
  unfold MapLand.fromBytes
  refine Lax.bind Lax.int32 fun land_id h_land_id => ?_
  refine Lax.bind Lax.uint32 fun terrain h_terrain => ?_
  refine Lax.bind Lax.int32 fun land_spacing h_land_spacing => ?_
  refine Lax.bind Lax.int32 fun base_size h_base_size => ?_
  refine Lax.bind Lax.int8 fun zone h_zone => ?_
  refine Lax.bind Lax.int8 fun placement_type h_placement_type => ?_
  refine Lax.bind Lax.int16 fun padding_1 h_padding_1 => ?_
  refine Lax.bind Lax.int32 fun base_x h_base_x => ?_
  refine Lax.bind Lax.int32 fun base_y h_base_y => ?_
  refine Lax.bind Lax.int8 fun land_proportion h_land_proportion => ?_
  refine Lax.bind Lax.int8 fun by_player_flag h_by_player_flag => ?_
  refine Lax.bind Lax.int16 fun padding_2 h_padding_2 => ?_
  refine Lax.bind Lax.int32 fun start_area_radius h_start_area_radius => ?_
  refine Lax.bind Lax.int32 fun terrain_edge_fade h_terrain_edge_fade => ?_
  refine Lax.bind Lax.int32 fun clumpiness h_clumpiness => ?_
  refine Lax.pure trivial ?_
  intro b14 k14 b13 k13 b12 k12 b11 k11 b10 k10 b9 k9 b8 k8 b7 k7 b6 k6 b5 k5 b4 k4 b3 k3 b2 k2 b1 k1 b0 k0
  unfold MapLand.layout
  exact ReadAsM.cons (by first | exact k0.int | exact k0.count (by assumption)) (.cons (by first | exact k1.int | exact k1.count (by assumption)) (.cons (by first | exact k2.int | exact k2.count (by assumption)) (.cons (by first | exact k3.int | exact k3.count (by assumption)) (.cons (by first | exact k4.int | exact k4.count (by assumption)) (.cons (by first | exact k5.int | exact k5.count (by assumption)) (.cons (by first | exact k6.int | exact k6.count (by assumption)) (.cons (by first | exact k7.int | exact k7.count (by assumption)) (.cons (by first | exact k8.int | exact k8.count (by assumption)) (.cons (by first | exact k9.int | exact k9.count (by assumption)) (.cons (by first | exact k10.int | exact k10.count (by assumption)) (.cons (by first | exact k11.int | exact k11.count (by assumption)) (.cons (by first | exact k12.int | exact k12.count (by assumption)) (.cons (by first | exact k13.int | exact k13.count (by assumption)) (.cons (by first | exact k14.int | exact k14.count (by assumption)) ReadAsM.nil))))))))))))))

theorem MapElevation.lax (v : Version) :
    Lax v MapElevation.fromBytes (fun _ => True) (fun x bs => ReadAsM (MapElevation.layout v x) bs) := by
  unfold MapElevation.fromBytes
  refine Lax.bind Lax.int32 fun proportion h_proportion => ?_
  refine Lax.bind Lax.int32 fun terrain h_terrain => ?_
  refine Lax.bind Lax.int32 fun clump_count h_clump_count => ?_
  refine Lax.bind Lax.int32 fun base_terrain h_base_terrain => ?_
  refine Lax.bind Lax.int32 fun base_elevation h_base_elevation => ?_
  refine Lax.bind Lax.int32 fun tile_spacing h_tile_spacing => ?_
  refine Lax.pure trivial ?_
  intro b5 k5 b4 k4 b3 k3 b2 k2 b1 k1 b0 k0
  unfold MapElevation.layout
  exact ReadAsM.cons (by first | exact k0.int | exact k0.count (by assumption)) (.cons (by first | exact k1.int | exact k1.count (by assumption)) (.cons (by first | exact k2.int | exact k2.count (by assumption)) (.cons (by first | exact k3.int | exact k3.count (by assumption)) (.cons (by first | exact k4.int | exact k4.count (by assumption)) (.cons (by first | exact k5.int | exact k5.count (by assumption)) ReadAsM.nil)))))

theorem MapInfo.lax (v : Version) :
    Lax v MapInfo.fromBytes (fun _ => True) (fun x bs => ReadAsM (MapInfo.layout v x) bs) := by
  unfold MapInfo.fromBytes
  refine Lax.bind Lax.int32 fun map_id h_map_id => ?_
  refine Lax.bind Lax.int32 fun border_south_west h_border_south_west => ?_
  refine Lax.bind Lax.int32 fun border_north_west h_border_north_west => ?_
  refine Lax.bind Lax.int32 fun border_north_east h_border_north_east => ?_
  refine Lax.bind Lax.int32 fun border_south_east h_border_south_east => ?_
  refine Lax.bind Lax.int32 fun border_usage h_border_usage => ?_
  refine Lax.bind Lax.int32 fun water_shape h_water_shape => ?_
  refine Lax.bind Lax.int32 fun base_terrain h_base_terrain => ?_
  refine Lax.bind Lax.int32 fun land_coverage h_land_coverage => ?_
  refine Lax.bind Lax.int32 fun unused_id h_unused_id => ?_
  refine Lax.bind Lax.uint32 fun map_lands_size h_map_lands_size => ?_
  refine Lax.bind Lax.int32 fun map_lands_ptr h_map_lands_ptr => ?_
  refine Lax.bind (Lax.classArray _ (MapLand.lax v)) fun map_lands h_map_lands => ?_
  refine Lax.bind Lax.uint32 fun map_terrains_size h_map_terrains_size => ?_
  refine Lax.bind Lax.int32 fun map_terrains_ptr h_map_terrains_ptr => ?_
  refine Lax.bind (Lax.classArray _ (MapTerrain.lax v)) fun map_terrains h_map_terrains => ?_
  refine Lax.bind Lax.uint32 fun map_units_size h_map_units_size => ?_
  refine Lax.bind Lax.int32 fun map_units_ptr h_map_units_ptr => ?_
  refine Lax.bind (Lax.classArray _ (MapUnit.lax v)) fun map_units h_map_units => ?_
  refine Lax.bind Lax.uint32 fun map_elevations_size h_map_elevations_size => ?_
  refine Lax.bind Lax.int32 fun map_elevations_ptr h_map_elevations_ptr => ?_
  refine Lax.bind (Lax.classArray _ (MapElevation.lax v)) fun map_elevations h_map_elevations => ?_
  refine Lax.pure trivial ?_
  intro b21 k21 b20 k20 b19 k19 b18 k18 b17 k17 b16 k16 b15 k15 b14 k14 b13 k13 b12 k12 b11 k11 b10 k10 b9 k9 b8 k8 b7 k7 b6 k6 b5 k5 b4 k4 b3 k3 b2 k2 b1 k1 b0 k0
  unfold MapInfo.layout
  exact ReadAsM.cons (by first | exact k0.int | exact k0.count (by assumption)) (.cons (by first | exact k1.int | exact k1.count (by assumption)) (.cons (by first | exact k2.int | exact k2.count (by assumption)) (.cons (by first | exact k3.int | exact k3.count (by assumption)) (.cons (by first | exact k4.int | exact k4.count (by assumption)) (.cons (by first | exact k5.int | exact k5.count (by assumption)) (.cons (by first | exact k6.int | exact k6.count (by assumption)) (.cons (by first | exact k7.int | exact k7.count (by assumption)) (.cons (by first | exact k8.int | exact k8.count (by assumption)) (.cons (by first | exact k9.int | exact k9.count (by assumption)) (.cons (by first | exact k10.int | exact k10.count (by assumption)) (.cons (by first | exact k11.int | exact k11.count (by assumption)) (.cons k12 (.cons (by first | exact k13.int | exact k13.count (by assumption)) (.cons (by first | exact k14.int | exact k14.count (by assumption)) (.cons k15 (.cons (by first | exact k16.int | exact k16.count (by assumption)) (.cons (by first | exact k17.int | exact k17.count (by assumption)) (.cons k18 (.cons (by first | exact k19.int | exact k19.count (by assumption)) (.cons (by first | exact k20.int | exact k20.count (by assumption)) (.cons k21 ReadAsM.nil)))))))))))))))))))))

theorem RandomMaps.lax (v : Version) :
    Lax v RandomMaps.fromBytes (fun _ => True) (fun x bs => ReadAsM (RandomMaps.layout v x) bs) := by
  unfold RandomMaps.fromBytes
  refine Lax.bind Lax.uint32 fun random_map_count h_random_map_count => ?_
  refine Lax.bind Lax.int32 fun random_maps_ptr h_random_maps_ptr => ?_
  refine Lax.bind (Lax.classArray _ (MapInfo.lax v)) fun map_info_1 h_map_info_1 => ?_
  refine Lax.bind (Lax.classArray _ (MapInfo.lax v)) fun map_info_2 h_map_info_2 => ?_
  refine Lax.pure trivial ?_
  intro b3 k3 b2 k2 b1 k1 b0 k0
  unfold RandomMaps.layout
  refine ReadAsM.requiresCons ?_
  exact ReadAsM.cons (by first | exact k0.int | exact k0.count (by assumption)) (.cons (by first | exact k1.int | exact k1.count (by assumption)) (.cons k2 (.cons k3 ReadAsM.nil)))

theorem ResearchResourceCost.lax (v : Version) :
    Lax v ResearchResourceCost.fromBytes (fun _ => True) (fun x bs => ReadAsM (ResearchResourceCost.layout v x) bs) := by
  unfold ResearchResourceCost.fromBytes
  refine Lax.bind Lax.int16 fun type h_type => ?_
  refine Lax.bind Lax.int16 fun amount h_amount => ?_
  refine Lax.bind Lax.int8 fun flag h_flag => ?_
  refine Lax.pure trivial ?_
  intro b2 k2 b1 k1 b0 k0
  unfold ResearchResourceCost.layout
  exact ReadAsM.cons (by first | exact k0.int | exact k0.count (by assumption)) (.cons (by first | exact k1.int | exact k1.count (by assumption)) (.cons (by first | exact k2.int | exact k2.count (by assumption)) ReadAsM.nil))

theorem ResearchLocation.lax (v : Version) :
    Lax v ResearchLocation.fromBytes (fun _ => True) (fun x bs => ReadAsM (ResearchLocation.layout v x) bs) := by
  unfold ResearchLocation.fromBytes
  refine Lax.bind Lax.int16 fun location_id h_location_id => ?_
  refine Lax.bind Lax.int16 fun research_time h_research_time => ?_
  refine Lax.bind Lax.int8 fun button_id h_button_id => ?_
  refine Lax.bind Lax.int32 fun hot_key_id h_hot_key_id => ?_
  refine Lax.pure trivial ?_
  intro b3 k3 b2 k2 b1 k1 b0 k0
  unfold ResearchLocation.layout
  exact ReadAsM.cons (by first | exact k0.int | exact k0.count (by assumption)) (.cons (by first | exact k1.int | exact k1.count (by assumption)) (.cons (by first | exact k2.int | exact k2.count (by assumption)) (.cons (by first | exact k3.int | exact k3.count (by assumption)) ReadAsM.nil)))

theorem Common.lax (v : Version) :
    Lax v Common.fromBytes (fun _ => True) (fun x bs => ReadAsM (Common.layout v x) bs) := by
  unfold Common.fromBytes
  refine Lax.bind Lax.int32 fun slots_used h_slots_used => ?_
  refine Lax.bind Lax.int32Array10 fun unit_research h_unit_research => ?_
  refine Lax.bind Lax.int32Array10 fun mode h_mode => ?_
  refine Lax.pure trivial ?_
  intro b2 k2 b1 k1 b0 k0
  unfold Common.layout
  exact ReadAsM.cons (by first | exact k0.int | exact k0.count (by assumption)) (.cons k1 (.cons k2 ReadAsM.nil))

theorem TechTreeAge.lax (v : Version) :
    Lax v TechTreeAge.fromBytes (fun _ => True) (fun x bs => ReadAsM (TechTreeAge.layout v x) bs) := by
  unfold TechTreeAge.fromBytes
  refine Lax.bind Lax.int32 fun id_ h_id_ => ?_
  refine Lax.bind Lax.int8 fun status h_status => ?_
  refine Lax.bind Lax.int8 fun buildings_count h_buildings_count => ?_
  refine Lax.bind (Lax.int32Array _) fun buildings h_buildings => ?_
  refine Lax.bind Lax.int8 fun units_count h_units_count => ?_
  refine Lax.bind (Lax.int32Array _) fun units h_units => ?_
  refine Lax.bind Lax.int8 fun techs_count h_techs_count => ?_
  refine Lax.bind (Lax.int32Array _) fun techs h_techs => ?_
  refine Lax.bind (Lax.class_ (Common.lax v)) fun common h_common => ?_
  refine Lax.bind Lax.int8 fun num_building_levels h_num_building_levels => ?_
  refine Lax.bind Lax.int8Array10 fun buildings_per_zone h_buildings_per_zone => ?_
  refine Lax.bind Lax.int8Array10 fun group_length_per_zone h_group_length_per_zone => ?_
  refine Lax.bind Lax.int8 fun max_age_length h_max_age_length => ?_
  refine Lax.bind Lax.int32 fun line_mode h_line_mode => ?_
  refine Lax.pure trivial ?_
  intro b13 k13 b12 k12 b11 k11 b10 k10 b9 k9 b8 k8 b7 k7 b6 k6 b5 k5 b4 k4 b3 k3 b2 k2 b1 k1 b0 k0
  unfold TechTreeAge.layout
  exact ReadAsM.cons (by first | exact k0.int | exact k0.count (by assumption)) (.cons (by first | exact k1.int | exact k1.count (by assumption)) (.cons (by first | exact k2.int | exact k2.count (by assumption)) (.cons k3 (.cons (by first | exact k4.int | exact k4.count (by assumption)) (.cons k5 (.cons (by first | exact k6.int | exact k6.count (by assumption)) (.cons k7 (.cons k8 (.cons (by first | exact k9.int | exact k9.count (by assumption)) (.cons k10 (.cons k11 (.cons (by first | exact k12.int | exact k12.count (by assumption)) (.cons (by first | exact k13.int | exact k13.count (by assumption)) ReadAsM.nil)))))))))))))

theorem BuildingConnection.lax (v : Version) :
    Lax v BuildingConnection.fromBytes (fun _ => True) (fun x bs => ReadAsM (BuildingConnection.layout v x) bs) := by
  unfold BuildingConnection.fromBytes
  refine Lax.bind Lax.int32 fun id_ h_id_ => ?_
  refine Lax.bind Lax.int8 fun status h_status => ?_
  refine Lax.bind Lax.int8 fun buildings_count h_buildings_count => ?_
  refine Lax.bind (Lax.int32Array _) fun buildings h_buildings => ?_
  refine Lax.bind Lax.int8 fun units_count h_units_count => ?_
  refine Lax.bind (Lax.int32Array _) fun units h_units => ?_
  refine Lax.bind Lax.int8 fun techs_count h_techs_count => ?_
  refine Lax.bind (Lax.int32Array _) fun techs h_techs => ?_
  refine Lax.bind (Lax.class_ (Common.lax v)) fun common h_common => ?_
  refine Lax.bind Lax.int8 fun location_in_age h_location_in_age => ?_
  refine Lax.bind Lax.int8Array5 fun units_techs_total h_units_techs_total => ?_
  refine Lax.bind Lax.int8Array5 fun units_techs_first h_units_techs_first => ?_
  refine Lax.bind Lax.int32 fun line_mode h_line_mode => ?_
  refine Lax.bind Lax.int32 fun enabling_research h_enabling_research => ?_
  refine Lax.pure trivial ?_
  intro b13 k13 b12 k12 b11 k11 b10 k10 b9 k9 b8 k8 b7 k7 b6 k6 b5 k5 b4 k4 b3 k3 b2 k2 b1 k1 b0 k0
  unfold BuildingConnection.layout
  exact ReadAsM.cons (by first | exact k0.int | exact k0.count (by assumption)) (.cons (by first | exact k1.int | exact k1.count (by assumption)) (.cons (by first | exact k2.int | exact k2.count (by assumption)) (.cons k3 (.cons (by first | exact k4.int | exact k4.count (by assumption)) (.cons k5 (.cons (by first | exact k6.int | exact k6.count (by assumption)) (.cons k7 (.cons k8 (.cons (by first | exact k9.int | exact k9.count (by assumption)) (.cons k10 (.cons k11 (.cons (by first | exact k12.int | exact k12.count (by assumption)) (.cons (by first | exact k13.int | exact k13.count (by assumption)) ReadAsM.nil)))))))))))))

theorem UnitConnection.lax (v : Version) :
    Lax v UnitConnection.fromBytes (fun _ => True) (fun x bs => ReadAsM (UnitConnection.layout v x) bs) := by
  unfold UnitConnection.fromBytes
  refine Lax.bind Lax.int32 fun id_ h_id_ => ?_
  refine Lax.bind Lax.int8 fun status h_status => ?_
  refine Lax.bind Lax.int32 fun upper_building h_upper_building => ?_
  refine Lax.bind (Lax.class_ (Common.lax v)) fun common h_common => ?_
  refine Lax.bind Lax.int32 fun vertical_line h_vertical_line => ?_
  refine Lax.bind Lax.int8 fun units_count h_units_count => ?_
  refine Lax.bind (Lax.int32Array _) fun units h_units => ?_
  refine Lax.bind Lax.int32 fun location_in_age h_location_in_age => ?_
  refine Lax.bind Lax.int32 fun required_research h_required_research => ?_
  refine Lax.bind Lax.int32 fun line_mode h_line_mode => ?_
  refine Lax.bind Lax.int32 fun enabling_research h_enabling_research => ?_
  refine Lax.pure trivial ?_
  intro b10 k10 b9 k9 b8 k8 b7 k7 b6 k6 b5 k5 b4 k4 b3 k3 b2 k2 b1 k1 b0 k0
  unfold UnitConnection.layout
  exact ReadAsM.cons (by first | exact k0.int | exact k0.count (by assumption)) (.cons (by first | exact k1.int | exact k1.count (by assumption)) (.cons (by first | exact k2.int | exact k2.count (by assumption)) (.cons k3 (.cons (by first | exact k4.int | exact k4.count (by assumption)) (.cons (by first | exact k5.int | exact k5.count (by assumption)) (.cons k6 (.cons (by first | exact k7.int | exact k7.count (by assumption)) (.cons (by first | exact k8.int | exact k8.count (by assumption)) (.cons (by first | exact k9.int | exact k9.count (by assumption)) (.cons (by first | exact k10.int | exact k10.count (by assumption)) ReadAsM.nil))))))))))

theorem ResearchConnection.lax (v : Version) :
    Lax v ResearchConnection.fromBytes (fun _ => True) (fun x bs => ReadAsM (ResearchConnection.layout v x) bs) := by
  unfold ResearchConnection.fromBytes
  refine Lax.bind Lax.int32 fun id_ h_id_ => ?_
  refine Lax.bind Lax.int8 fun status h_status => ?_
  refine Lax.bind Lax.int32 fun upper_building h_upper_building => ?_
  refine Lax.bind Lax.int8 fun buildings_count h_buildings_count => ?_
  refine Lax.bind (Lax.int32Array _) fun buildings h_buildings => ?_
  refine Lax.bind Lax.int8 fun units_count h_units_count => ?_
  refine Lax.bind (Lax.int32Array _) fun units h_units => ?_
  refine Lax.bind Lax.int8 fun techs_count h_techs_count => ?_
  refine Lax.bind (Lax.int32Array _) fun techs h_techs => ?_
  refine Lax.bind (Lax.class_ (Common.lax v)) fun common h_common => ?_
  refine Lax.bind Lax.int32 fun vertical_line h_vertical_line => ?_
  refine Lax.bind Lax.int32 fun location_in_age h_location_in_age => ?_
  refine Lax.bind Lax.int32 fun line_mode h_line_mode => ?_
  refine Lax.pure trivial ?_
  intro b12 k12 b11 k11 b10 k10 b9 k9 b8 k8 b7 k7 b6 k6 b5 k5 b4 k4 b3 k3 b2 k2 b1 k1 b0 k0
  unfold ResearchConnection.layout
  exact ReadAsM.cons (by first | exact k0.int | exact k0.count (by assumption)) (.cons (by first | exact k1.int | exact k1.count (by assumption)) (.cons (by first | exact k2.int | exact k2.count (by assumption)) (.cons (by first | exact k3.int | exact k3.count (by assumption)) (.cons k4 (.cons (by first | exact k5.int | exact k5.count (by assumption)) (.cons k6 (.cons (by first | exact k7.int | exact k7.count (by assumption)) (.cons k8 (.cons k9 (.cons (by first | exact k10.int | exact k10.count (by assumption)) (.cons (by first | exact k11.int | exact k11.count (by assumption)) (.cons (by first | exact k12.int | exact k12.count (by assumption)) ReadAsM.nil))))))))))))

theorem TechTree.lax (v : Version) :
    Lax v TechTree.fromBytes (fun _ => True) (fun x bs => ReadAsM (TechTree.layout v x) bs) := by
  unfold TechTree.fromBytes
  refine Lax.bind Lax.int8 fun age_count h_age_count => ?_
  refine Lax.bind Lax.int8 fun building_count h_building_count => ?_
  refine Lax.bind Lax.int8 fun unit_count h_unit_count => ?_
  refine Lax.bind Lax.int8 fun research_count h_research_count => ?_
  refine Lax.bind Lax.int32 fun total_unit_tech_groups h_total_unit_tech_groups => ?_
  refine Lax.bind (Lax.classArray _ (TechTreeAge.lax v)) fun tech_tree_ages h_tech_tree_ages => ?_
  refine Lax.bind (Lax.classArray _ (BuildingConnection.lax v)) fun building_connections h_building_connections => ?_
  refine Lax.bind (Lax.classArray _ (UnitConnection.lax v)) fun unit_connections h_unit_connections => ?_
  refine Lax.bind (Lax.classArray _ (ResearchConnection.lax v)) fun research_connections h_research_connections => ?_
  refine Lax.pure trivial ?_
  intro b8 k8 b7 k7 b6 k6 b5 k5 b4 k4 b3 k3 b2 k2 b1 k1 b0 k0
  unfold TechTree.layout
  exact ReadAsM.cons (by first | exact k0.int | exact k0.count (by assumption)) (.cons (by first | exact k1.int | exact k1.count (by assumption)) (.cons (by first | exact k2.int | exact k2.count (by assumption)) (.cons (by first | exact k3.int | exact k3.count (by assumption)) (.cons (by first | exact k4.int | exact k4.count (by assumption)) (.cons k5 (.cons k6 (.cons k7 (.cons k8 ReadAsM.nil))))))))

theorem FrameData.lax (v : Version) :
    Lax v FrameData.fromBytes (fun _ => True) (fun x bs => ReadAsM (FrameData.layout v x) bs) := by
  unfold FrameData.fromBytes
  refine Lax.bind Lax.int16 fun frame_count h_frame_count => ?_
  refine Lax.bind Lax.int16 fun angle_count h_angle_count => ?_
  refine Lax.bind Lax.int16 fun shape_id h_shape_id => ?_
  refine Lax.pure trivial ?_
  intro b2 k2 b1 k1 b0 k0
  unfold FrameData.layout
  exact ReadAsM.cons (by first | exact k0.int | exact k0.count (by assumption)) (.cons (by first | exact k1.int | exact k1.count (by assumption)) (.cons (by first | exact k2.int | exact k2.count (by assumption)) ReadAsM.nil))

theorem Terrain.lax (v : Version) :
    Lax v Terrain.fromBytes (fun _ => True) (fun x bs => ReadAsM (Terrain.layout v x) bs) := by
  unfold Terrain.fromBytes
  refine Lax.bind Lax.int8 fun enabled h_enabled => ?_
  refine Lax.bind Lax.int8 fun random h_random => ?_
  refine Lax.bind Lax.int8 fun is_water h_is_water => ?_
  refine Lax.bind Lax.int8 fun hide_in_editor h_hide_in_editor => ?_
  refine Lax.bind Lax.int32 fun string_id h_string_id => ?_
  refine Lax.bind Lax.debugString fun name h_name => ?_
  refine Lax.bind Lax.debugString fun name_2 h_name_2 => ?_
  refine Lax.bind Lax.int32 fun slp h_slp => ?_
  refine Lax.bind Lax.int32 fun shape_ptr h_shape_ptr => ?_
  refine Lax.bind Lax.int32 fun sound_id h_sound_id => ?_
  refine Lax.bind Lax.uint32 fun wwise_sound_id h_wwise_sound_id => ?_
  refine Lax.bind Lax.uint32 fun wwise_sound_stop_id h_wwise_sound_stop_id => ?_
  refine Lax.bind Lax.int32 fun blend_priority h_blend_priority => ?_
  refine Lax.bind Lax.int32 fun blend_type h_blend_type => ?_
  refine Lax.bind Lax.debugString fun overlay_mask_name h_overlay_mask_name => ?_
  refine Lax.bind Lax.int8Array3 fun colors h_colors => ?_
  refine Lax.bind Lax.int8Array2 fun cliff_colors h_cliff_colors => ?_
  refine Lax.bind Lax.int8 fun passable_terrain h_passable_terrain => ?_
  refine Lax.bind Lax.int8 fun impassable_terrain h_impassable_terrain => ?_
  refine Lax.bind Lax.int8 fun is_animated h_is_animated => ?_
  refine Lax.bind Lax.int16 fun animation_frames h_animation_frames => ?_
  refine Lax.bind Lax.int16 fun pause_frames h_pause_frames => ?_
  refine Lax.bind Lax.float fun interval h_interval => ?_
  refine Lax.bind Lax.float fun pause_between_loops h_pause_between_loops => ?_
  refine Lax.bind Lax.int16 fun frame h_frame => ?_
  refine Lax.bind Lax.int16 fun draw_frame h_draw_frame => ?_
  refine Lax.bind Lax.float fun animate_last h_animate_last => ?_
  refine Lax.bind Lax.int8 fun frame_changed h_frame_changed => ?_
  refine Lax.bind Lax.int8 fun drawn h_drawn => ?_
  refine Lax.bind (Lax.classArray _ (FrameData.lax v)) fun frame_data h_frame_data => ?_
  refine Lax.bind Lax.int16 fun terrain_to_draw h_terrain_to_draw => ?_
  refine Lax.bind Lax.int16Array2 fun terrain_dimensions h_terrain_dimensions => ?_
  refine Lax.bind (Lax.int16Array _) fun terrain_unit_masked_density h_terrain_unit_masked_density => ?_
  refine Lax.bind (Lax.int16Array _) fun terrain_unit_id h_terrain_unit_id => ?_
  refine Lax.bind (Lax.int16Array _) fun terrain_unit_density h_terrain_unit_density => ?_
  refine Lax.bind (Lax.int8Array _) fun terrain_unit_centering h_terrain_unit_centering => ?_
  refine Lax.bind Lax.int16 fun number_of_terrain_units_used h_number_of_terrain_units_used => ?_
  refine Lax.bind Lax.int16 fun phantom h_phantom => ?_
  refine Lax.pure trivial ?_
  intro b37 k37 b36 k36 b35 k35 b34 k34 b33 k33 b32 k32 b31 k31 b30 k30 b29 k29 b28 k28 b27 k27 b26 k26 b25 k25 b24 k24 b23 k23 b22 k22 b21 k21 b20 k20 b19 k19 b18 k18 b17 k17 b16 k16 b15 k15 b14 k14 b13 k13 b12 k12 b11 k11 b10 k10 b9 k9 b8 k8 b7 k7 b6 k6 b5 k5 b4 k4 b3 k3 b2 k2 b1 k1 b0 k0
  unfold Terrain.layout
  exact ReadAsM.cons (by first | exact k0.int | exact k0.count (by assumption)) (.cons (by first | exact k1.int | exact k1.count (by assumption)) (.cons (by first | exact k2.int | exact k2.count (by assumption)) (.cons (by first | exact k3.int | exact k3.count (by assumption)) (.cons (by first | exact k4.int | exact k4.count (by assumption)) (.cons k5 (.cons k6 (.cons (by first | exact k7.int | exact k7.count (by assumption)) (.cons (by first | exact k8.int | exact k8.count (by assumption)) (.cons (by first | exact k9.int | exact k9.count (by assumption)) (.cons (by first | exact k10.int | exact k10.count (by assumption)) (.cons (by first | exact k11.int | exact k11.count (by assumption)) (.cons (by first | exact k12.int | exact k12.count (by assumption)) (.cons (by first | exact k13.int | exact k13.count (by assumption)) (.cons k14 (.cons k15 (.cons k16 (.cons (by first | exact k17.int | exact k17.count (by assumption)) (.cons (by first | exact k18.int | exact k18.count (by assumption)) (.cons (by first | exact k19.int | exact k19.count (by assumption)) (.cons (by first | exact k20.int | exact k20.count (by assumption)) (.cons (by first | exact k21.int | exact k21.count (by assumption)) (.cons k22 (.cons k23 (.cons (by first | exact k24.int | exact k24.count (by assumption)) (.cons (by first | exact k25.int | exact k25.count (by assumption)) (.cons k26 (.cons (by first | exact k27.int | exact k27.count (by assumption)) (.cons (by first | exact k28.int | exact k28.count (by assumption)) (.cons k29 (.cons (by first | exact k30.int | exact k30.count (by assumption)) (.cons k31 (.cons k32 (.cons k33 (.cons k34 (.cons k35 (.cons (by first | exact k36.int | exact k36.count (by assumption)) (.cons (by first | exact k37.int | exact k37.count (by assumption)) ReadAsM.nil)))))))))))))))))))))))))))))))))))))

theorem TileSize.lax (v : Version) :
    Lax v TileSize.fromBytes (fun _ => True) (fun x bs => ReadAsM (TileSize.layout v x) bs) := by
  unfold TileSize.fromBytes
  refine Lax.bind Lax.int16 fun width h_width => ?_
  refine Lax.bind Lax.int16 fun height h_height => ?_
  refine Lax.bind Lax.int16 fun delta_y h_delta_y => ?_
  refine Lax.pure trivial ?_
  intro b2 k2 b1 k1 b0 k0
  unfold TileSize.layout
  exact ReadAsM.cons (by first | exact k0.int | exact k0.count (by assumption)) (.cons (by first | exact k1.int | exact k1.count (by assumption)) (.cons (by first | exact k2.int | exact k2.count (by assumption)) ReadAsM.nil))

theorem TerrainBlock.lax (v : Version) :
    Lax v TerrainBlock.fromBytes (fun _ => True) (fun x bs => ReadAsM (TerrainBlock.layout v x) bs) := by
  unfold TerrainBlock.fromBytes
  refine Lax.bind Lax.uint32 fun virtual_function_ptr h_virtual_function_ptr => ?_
  refine Lax.bind Lax.uint32 fun map_pointer h_map_pointer => ?_
  refine Lax.bind Lax.int32 fun map_width h_map_width => ?_
  refine Lax.bind Lax.int32 fun map_height h_map_height => ?_
  refine Lax.bind Lax.int32 fun world_width h_world_width => ?_
  refine Lax.bind Lax.int32 fun world_height h_world_height => ?_
  refine Lax.bind (Lax.classArray _ (TileSize.lax v)) fun tile_sizes h_tile_sizes => ?_
  refine Lax.bind Lax.int16 fun padding_ts h_padding_ts => ?_
  refine Lax.bind (Lax.classArray _ (Terrain.lax v)) fun terrains h_terrains => ?_
  refine Lax.bind Lax.float fun map_min_x h_map_min_x => ?_
  refine Lax.bind Lax.float fun map_min_y h_map_min_y => ?_
  refine Lax.bind Lax.float fun map_max_x h_map_max_x => ?_
  refine Lax.bind Lax.float fun map_max_y h_map_max_y => ?_
  refine Lax.bind Lax.float fun map_max_x_plus_1 h_map_max_x_plus_1 => ?_
  refine Lax.bind Lax.float fun map_max_y_plus_1 h_map_max_y_plus_1 => ?_
  refine Lax.bind Lax.int16 fun terrains_used_2 h_terrains_used_2 => ?_
  refine Lax.bind Lax.int16 fun borders_used h_borders_used => ?_
  refine Lax.bind Lax.int16 fun max_terrain h_max_terrain => ?_
  refine Lax.bind Lax.int16 fun tile_width h_tile_width => ?_
  refine Lax.bind Lax.int16 fun tile_height h_tile_height => ?_
  refine Lax.bind Lax.int16 fun tile_half_height h_tile_half_height => ?_
  refine Lax.bind Lax.int16 fun tile_half_width h_tile_half_width => ?_
  refine Lax.bind Lax.int16 fun elev_height h_elev_height => ?_
  refine Lax.bind Lax.int16 fun cur_row h_cur_row => ?_
  refine Lax.bind Lax.int16 fun cur_col h_cur_col => ?_
  refine Lax.bind Lax.int16 fun block_beg_row h_block_beg_row => ?_
  refine Lax.bind Lax.int16 fun block_end_row h_block_end_row => ?_
  refine Lax.bind Lax.int16 fun block_beg_col h_block_beg_col => ?_
  refine Lax.bind Lax.int16 fun block_end_col h_block_end_col => ?_
  refine Lax.bind Lax.uint32 fun search_map_ptr h_search_map_ptr => ?_
  refine Lax.bind Lax.uint32 fun search_map_rows_ptr h_search_map_rows_ptr => ?_
  refine Lax.bind Lax.int8 fun any_frame_change h_any_frame_change => ?_
  refine Lax.bind Lax.int8 fun map_visible_flag h_map_visible_flag => ?_
  refine Lax.bind Lax.int8 fun fog_flag h_fog_flag => ?_
  refine Lax.pure trivial ?_
  intro b33 k33 b32 k32 b31 k31 b30 k30 b29 k29 b28 k28 b27 k27 b26 k26 b25 k25 b24 k24 b23 k23 b22 k22 b21 k21 b20 k20 b19 k19 b18 k18 b17 k17 b16 k16 b15 k15 b14 k14 b13 k13 b12 k12 b11 k11 b10 k10 b9 k9 b8 k8 b7 k7 b6 k6 b5 k5 b4 k4 b3 k3 b2 k2 b1 k1 b0 k0
  unfold TerrainBlock.layout
  exact ReadAsM.cons (by first | exact k0.int | exact k0.count (by assumption)) (.cons (by first | exact k1.int | exact k1.count (by assumption)) (.cons (by first | exact k2.int | exact k2.count (by assumption)) (.cons (by first | exact k3.int | exact k3.count (by assumption)) (.cons (by first | exact k4.int | exact k4.count (by assumption)) (.cons (by first | exact k5.int | exact k5.count (by assumption)) (.cons k6 (.cons (by first | exact k7.int | exact k7.count (by assumption)) (.cons k8 (.cons k9 (.cons k10 (.cons k11 (.cons k12 (.cons k13 (.cons k14 (.cons (by first | exact k15.int | exact k15.count (by assumption)) (.cons (by first | exact k16.int | exact k16.count (by assumption)) (.cons (by first | exact k17.int | exact k17.count (by assumption)) (.cons (by first | exact k18.int | exact k18.count (by assumption)) (.cons (by first | exact k19.int | exact k19.count (by assumption)) (.cons (by first | exact k20.int | exact k20.count (by assumption)) (.cons (by first | exact k21.int | exact k21.count (by assumption)) (.cons (by first | exact k22.int | exact k22.count (by assumption)) (.cons (by first | exact k23.int | exact k23.count (by assumption)) (.cons (by first | exact k24.int | exact k24.count (by assumption)) (.cons (by first | exact k25.int | exact k25.count (by assumption)) (.cons (by first | exact k26.int | exact k26.count (by assumption)) (.cons (by first | exact k27.int | exact k27.count (by assumption)) (.cons (by first | exact k28.int | exact k28.count (by assumption)) (.cons (by first | exact k29.int | exact k29.count (by assumption)) (.cons (by first | exact k30.int | exact k30.count (by assumption)) (.cons (by first | exact k31.int | exact k31.count (by assumption)) (.cons (by first | exact k32.int | exact k32.count (by assumption)) (.cons (by first | exact k33.int | exact k33.count (by assumption)) ReadAsM.nil)))))))))))))))))))))))))))))))))

theorem ResourceStorage.lax (v : Version) :
    Lax v ResourceStorage.fromBytes (fun _ => True) (fun x bs => ReadAsM (ResourceStorage.layout v x) bs) := by
  unfold ResourceStorage.fromBytes
  refine Lax.bind (Lax.unpack (cs := [.h, .f, .b]) (by decide) (by decide)) fun vs hm => ?_
  obtain ⟨type_, vs, rfl, h_type_, hm⟩ := hm.popH
  obtain ⟨amount, vs, rfl, h_amount, hm⟩ := hm.popF
  obtain ⟨flag, vs, rfl, h_flag, hm⟩ := hm.popB
  obtain rfl := hm.done
  dsimp only [popInt, popFloat, popDone]
  refine Lax.pure trivial ?_
  intro b0 k0
  unfold ResourceStorage.layout
  rw [List.append_nil]; exact k0 _ (by decide)

theorem DamageGraphic.lax (v : Version) :
    Lax v DamageGraphic.fromBytes (fun _ => True) (fun x bs => ReadAsM (DamageGraphic.layout v x) bs) := by
  unfold DamageGraphic.fromBytes
  refine Lax.bind (Lax.unpack (cs := [.h, .h, .b]) (by decide) (by decide)) fun vs hm => ?_
  obtain ⟨graphic_id, vs, rfl, h_graphic_id, hm⟩ := hm.popH
  obtain ⟨damage_percent, vs, rfl, h_damage_percent, hm⟩ := hm.popH
  obtain ⟨apply_mode, vs, rfl, h_apply_mode, hm⟩ := hm.popB
  obtain rfl := hm.done
  dsimp only [popInt, popFloat, popDone]
  refine Lax.pure trivial ?_
  intro b0 k0
  unfold DamageGraphic.layout
  rw [List.append_nil]; exact k0 _ (by decide)

theorem DeadFish.lax (v : Version) :
    Lax v DeadFish.fromBytes (fun _ => True) (fun x bs => ReadAsM (DeadFish.layout v x) bs) := by
  unfold DeadFish.fromBytes
  refine Lax.bind (Lax.unpack (cs := [.h, .h, .f, .b, .h, .b, .f, .b, .f, .f, .f, .f, .f, .f]) (by decide) (by decide)) fun vs hm => ?_
  obtain ⟨walking_graphic, vs, rfl, h_walking_graphic, hm⟩ := hm.popH
  obtain ⟨running_graphic, vs, rfl, h_running_graphic, hm⟩ := hm.popH
  obtain ⟨rotation_speed, vs, rfl, h_rotation_speed, hm⟩ := hm.popF
  obtain ⟨old_size_class, vs, rfl, h_old_size_class, hm⟩ := hm.popB
  obtain ⟨tracking_unit, vs, rfl, h_tracking_unit, hm⟩ := hm.popH
  obtain ⟨tracking_unit_mode, vs, rfl, h_tracking_unit_mode, hm⟩ := hm.popB
  obtain ⟨tracking_unit_density, vs, rfl, h_tracking_unit_density, hm⟩ := hm.popF
  obtain ⟨old_move_algorithm, vs, rfl, h_old_move_algorithm, hm⟩ := hm.popB
  obtain ⟨turn_radius, vs, rfl, h_turn_radius, hm⟩ := hm.popF
  obtain ⟨turn_radius_speed, vs, rfl, h_turn_radius_speed, hm⟩ := hm.popF
  obtain ⟨max_yaw_per_second_moving, vs, rfl, h_max_yaw_per_second_moving, hm⟩ := hm.popF
  obtain ⟨stationary_yaw_revolution_time, vs, rfl, h_stationary_yaw_revolution_time, hm⟩ := hm.popF
  obtain ⟨max_yaw_per_second_stationary, vs, rfl, h_max_yaw_per_second_stationary, hm⟩ := hm.popF
  obtain ⟨min_collision_size_multiplier, vs, rfl, h_min_collision_size_multiplier, hm⟩ := hm.popF
  obtain rfl := hm.done
  dsimp only [popInt, popFloat, popDone]
  refine Lax.pure trivial ?_
  intro b0 k0
  unfold DeadFish.layout
  rw [List.append_nil]; exact k0 _ (by decide)

theorem AttackOrArmor.lax (v : Version) :
    Lax v AttackOrArmor.fromBytes (fun _ => True) (fun x bs => ReadAsM (AttackOrArmor.layout v x) bs) := by
  unfold AttackOrArmor.fromBytes
  refine Lax.bind (Lax.unpack (cs := [.h, .h]) (by decide) (by decide)) fun vs hm => ?_
  obtain ⟨class_, vs, rfl, h_class_, hm⟩ := hm.popH
  obtain ⟨amount, vs, rfl, h_amount, hm⟩ := hm.popH
  obtain rfl := hm.done
  dsimp only [popInt, popFloat, popDone]
  refine Lax.pure trivial ?_
  intro b0 k0
  unfold AttackOrArmor.layout
  rw [List.append_nil]; exact k0 _ (by decide)

theorem Projectile.lax (v : Version) :
    Lax v Projectile.fromBytes (fun _ => True) (fun x bs => ReadAsM (Projectile.layout v x) bs) := by
  unfold Projectile.fromBytes
  refine Lax.bind (Lax.unpack (cs := [.b, .b, .b, .b, .b, .f]) (by decide) (by decide)) fun vs hm => ?_
  obtain ⟨projectile_type, vs, rfl, h_projectile_type, hm⟩ := hm.popB
  obtain ⟨smart_mode, vs, rfl, h_smart_mode, hm⟩ := hm.popB
  obtain ⟨hit_mode, vs, rfl, h_hit_mode, hm⟩ := hm.popB
  obtain ⟨vanish_mode, vs, rfl, h_vanish_mode, hm⟩ := hm.popB
  obtain ⟨area_effect_specials, vs, rfl, h_area_effect_specials, hm⟩ := hm.popB
  obtain ⟨projectile_arc, vs, rfl, h_projectile_arc, hm⟩ := hm.popF
  obtain rfl := hm.done
  dsimp only [popInt, popFloat, popDone]
  refine Lax.pure trivial ?_
  intro b0 k0
  unfold Projectile.layout
  rw [List.append_nil]; exact k0 _ (by decide)

theorem ResourceCost.lax (v : Version) :
    Lax v ResourceCost.fromBytes (fun _ => True) (fun x bs => ReadAsM (ResourceCost.layout v x) bs) := by
  unfold ResourceCost.fromBytes
  refine Lax.bind (Lax.unpack (cs := [.h, .h, .h]) (by decide) (by decide)) fun vs hm => ?_
  obtain ⟨type_, vs, rfl, h_type_, hm⟩ := hm.popH
  obtain ⟨amount, vs, rfl, h_amount, hm⟩ := hm.popH
  obtain ⟨flag, vs, rfl, h_flag, hm⟩ := hm.popH
  obtain rfl := hm.done
  dsimp only [popInt, popFloat, popDone]
  refine Lax.pure trivial ?_
  intro b0 k0
  unfold ResourceCost.layout
  rw [List.append_nil]; exact k0 _ (by decide)

theorem BuildingAnnex.lax (v : Version) :
    Lax v BuildingAnnex.fromBytes (fun _ => True) (fun x bs => ReadAsM (BuildingAnnex.layout v x) bs) := by
  unfold BuildingAnnex.fromBytes
  refine Lax.bind (Lax.unpack (cs := [.h, .f, .f]) (by decide) (by decide)) fun vs hm => ?_
  obtain ⟨unit_id, vs, rfl, h_unit_id, hm⟩ := hm.popH
  obtain ⟨misplacement_x, vs, rfl, h_misplacement_x, hm⟩ := hm.popF
  obtain ⟨misplacement_y, vs, rfl, h_misplacement_y, hm⟩ := hm.popF
  obtain rfl := hm.done
  dsimp only [popInt, popFloat, popDone]
  refine Lax.pure trivial ?_
  intro b0 k0
  unfold BuildingAnnex.layout
  rw [List.append_nil]; exact k0 _ (by decide)

theorem Building.lax (v : Version) :
    Lax v Building.fromBytes (fun _ => True) (fun x bs => ReadAsM (Building.layout v x) bs) := by
  unfold Building.fromBytes
  refine Lax.bind (Lax.unpack (cs := [.h, .h, .h, .h, .h, .h, .b, .h, .b, .h, .h, .h, .h, .b]) (by decide) (by decide)) fun vs hm => ?_
  obtain ⟨construction_graphic_id, vs, rfl, h_construction_graphic_id, hm⟩ := hm.popH
  obtain ⟨snow_graphic_id, vs, rfl, h_snow_graphic_id, hm⟩ := hm.popH
  obtain ⟨destruction_graphic_id, vs, rfl, h_destruction_graphic_id, hm⟩ := hm.popH
  obtain ⟨destruction_rubble_graphic_id, vs, rfl, h_destruction_rubble_graphic_id, hm⟩ := hm.popH
  obtain ⟨researching_graphic, vs, rfl, h_researching_graphic, hm⟩ := hm.popH
  obtain ⟨research_completed_graphic, vs, rfl, h_research_completed_graphic, hm⟩ := hm.popH
  obtain ⟨adjacent_mode, vs, rfl, h_adjacent_mode, hm⟩ := hm.popB
  obtain ⟨graphics_angle, vs, rfl, h_graphics_angle, hm⟩ := hm.popH
  obtain ⟨disappears_when_built, vs, rfl, h_disappears_when_built, hm⟩ := hm.popB
  obtain ⟨stack_unit_id, vs, rfl, h_stack_unit_id, hm⟩ := hm.popH
  obtain ⟨foundation_terrain_id, vs, rfl, h_foundation_terrain_id, hm⟩ := hm.popH
  obtain ⟨old_overlap_id, vs, rfl, h_old_overlap_id, hm⟩ := hm.popH
  obtain ⟨tech_id, vs, rfl, h_tech_id, hm⟩ := hm.popH
  obtain ⟨can_burn, vs, rfl, h_can_burn, hm⟩ := hm.popB
  obtain rfl := hm.done
  dsimp only [popInt, popFloat, popDone]
  refine Lax.bind (Lax.classArray4 (BuildingAnnex.lax v)) fun annexes h_annexes => ?_
  refine Lax.bind (Lax.unpack (cs := [.h, .h, .h, .h, .l, .l, .b, .f, .f, .h, .b, .b, .b, .b, .b, .b]) (by decide) (by decide)) fun vs hm => ?_
  obtain ⟨head_unit, vs, rfl, h_head_unit, hm⟩ := hm.popH
  obtain ⟨transform_unit, vs, rfl, h_transform_unit, hm⟩ := hm.popH
  obtain ⟨transform_sound, vs, rfl, h_transform_sound, hm⟩ := hm.popH
  obtain ⟨construction_sound, vs, rfl, h_construction_sound, hm⟩ := hm.popH
  obtain ⟨wwise_transform_sound_id, vs, rfl, h_wwise_transform_sound_id, hm⟩ := hm.popL
  obtain ⟨wwise_construction_sound_id, vs, rfl, h_wwise_construction_sound_id, hm⟩ := hm.popL
  obtain ⟨garrison_type, vs, rfl, h_garrison_type, hm⟩ := hm.popB
  obtain ⟨garrison_heal_rate, vs, rfl, h_garrison_heal_rate, hm⟩ := hm.popF
  obtain ⟨garrison_repair_rate, vs, rfl, h_garrison_repair_rate, hm⟩ := hm.popF
  obtain ⟨pile_unit, vs, rfl, h_pile_unit, hm⟩ := hm.popH
  obtain ⟨looting_table_1, vs, rfl, h_looting_table_1, hm⟩ := hm.popB
  obtain ⟨looting_table_2, vs, rfl, h_looting_table_2, hm⟩ := hm.popB
  obtain ⟨looting_table_3, vs, rfl, h_looting_table_3, hm⟩ := hm.popB
  obtain ⟨looting_table_4, vs, rfl, h_looting_table_4, hm⟩ := hm.popB
  obtain ⟨looting_table_5, vs, rfl, h_looting_table_5, hm⟩ := hm.popB
  obtain ⟨looting_table_6, vs, rfl, h_looting_table_6, hm⟩ := hm.popB
  obtain rfl := hm.done
  dsimp only [popInt, popFloat, popDone]
  refine Lax.pure trivial ?_
  intro b2 k2 b1 k1 b0 k0
  unfold Building.layout
  exact ReadAsM.cons (k0 _ (by decide)) (.cons k1 (.cons (k2 _ (by decide)) ReadAsM.nil))

end Genie
