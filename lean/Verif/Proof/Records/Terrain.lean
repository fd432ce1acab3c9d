import Verif.Proof.Containers
import Verif.Spec.Records
/-! # Write-read and read-write lemmas of the plain records (Terrain); generated by `tools/gen_records.py` -/

namespace Genie

theorem FrameData.rw {v : Version} {x : FrameData} (h : FrameData.WF v x) :
    RW v FrameData.fromBytes (FrameData.toBytes v x) x := by
  obtain ⟨x_frame_count, x_angle_count, x_shape_id⟩ := x
  obtain ⟨h_frame_count, h_angle_count, h_shape_id⟩ := h
  dsimp only at h_frame_count h_angle_count h_shape_id
  unfold FrameData.fromBytes FrameData.toBytes
  refine RW.bind (RW.int16 h_frame_count) ?_
  refine RW.bind (RW.int16 h_angle_count) ?_
  refine RW.bind (RW.int16 h_shape_id) ?_
  exact RW.pure rfl

theorem FrameData.good (v : Version) :
    Good v FrameData.fromBytes (FrameData.WF v) (fun x bs => FrameData.toBytes v x = .ok bs) := by
  unfold FrameData.fromBytes
  refine Good.bind Good.int16 fun frame_count h_frame_count => ?_
  refine Good.bind Good.int16 fun angle_count h_angle_count => ?_
  refine Good.bind Good.int16 fun shape_id h_shape_id => ?_
  refine Good.pure ⟨h_frame_count, h_angle_count, h_shape_id⟩ ?_
  rintro b2 k2 b1 k1 b0 k0
  unfold FrameData.toBytes
  exact joinB_cons_ok k0 (joinB_cons_ok k1 (joinB_cons_ok k2 rfl))

theorem Terrain.rw {v : Version} {x : Terrain} (h : Terrain.WF v x) :
    RW v Terrain.fromBytes (Terrain.toBytes v x) x := by
  obtain ⟨x_enabled, x_random, x_is_water, x_hide_in_editor, x_string_id, x_name, x_name_2, x_slp, x_shape_ptr, x_sound_id, x_wwise_sound_id, x_wwise_sound_stop_id, x_blend_priority, x_blend_type, x_overlay_mask_name, x_colors, x_cliff_colors, x_passable_terrain, x_impassable_terrain, x_is_animated, x_animation_frames, x_pause_frames, x_interval, x_pause_between_loops, x_frame, x_draw_frame, x_animate_last, x_frame_changed, x_drawn, x_frame_data, x_terrain_to_draw, x_terrain_dimensions, x_terrain_unit_masked_density, x_terrain_unit_id, x_terrain_unit_density, x_terrain_unit_centering, x_number_of_terrain_units_used, x_phantom⟩ := x
  obtain ⟨h_enabled, h_random, h_is_water, h_hide_in_editor, h_string_id, h_name, h_name_2, h_slp, h_shape_ptr, h_sound_id, h_wwise_sound_id, h_wwise_sound_stop_id, h_blend_priority, h_blend_type, h_overlay_mask_name, h_colors, h_cliff_colors, h_passable_terrain, h_impassable_terrain, h_is_animated, h_animation_frames, h_pause_frames, h_interval, h_pause_between_loops, h_frame, h_draw_frame, h_animate_last, h_frame_changed, h_drawn, h_frame_data, h_terrain_to_draw, h_terrain_dimensions, h_terrain_unit_masked_density, h_terrain_unit_id, h_terrain_unit_density, h_terrain_unit_centering, h_number_of_terrain_units_used, h_phantom⟩ := h
  dsimp only at h_enabled h_random h_is_water h_hide_in_editor h_string_id h_name h_name_2 h_slp h_shape_ptr h_sound_id h_wwise_sound_id h_wwise_sound_stop_id h_blend_priority h_blend_type h_overlay_mask_name h_colors h_cliff_colors h_passable_terrain h_impassable_terrain h_is_animated h_animation_frames h_pause_frames h_interval h_pause_between_loops h_frame h_draw_frame h_animate_last h_frame_changed h_drawn h_frame_data h_terrain_to_draw h_terrain_dimensions h_terrain_unit_masked_density h_terrain_unit_id h_terrain_unit_density h_terrain_unit_centering h_number_of_terrain_units_used h_phantom
  unfold Terrain.fromBytes Terrain.toBytes
  refine RW.bind (RW.int8 h_enabled) ?_
  refine RW.bind (RW.int8 h_random) ?_
  refine RW.bind (RW.int8 h_is_water) ?_
  refine RW.bind (RW.int8 h_hide_in_editor) ?_
  refine RW.bind (RW.int32 h_string_id) ?_
  refine RW.bind (RW.debugString h_name) ?_
  refine RW.bind (RW.debugString h_name_2) ?_
  refine RW.bind (RW.int32 h_slp) ?_
  refine RW.bind (RW.int32 h_shape_ptr) ?_
  refine RW.bind (RW.int32 h_sound_id) ?_
  refine RW.bind (RW.uint32 h_wwise_sound_id) ?_
  refine RW.bind (RW.uint32 h_wwise_sound_stop_id) ?_
  refine RW.bind (RW.int32 h_blend_priority) ?_
  refine RW.bind (RW.int32 h_blend_type) ?_
  refine RW.bind (RW.debugString h_overlay_mask_name) ?_
  refine RW.bind (RW.int8Array3 h_colors) ?_
  refine RW.bind (RW.int8Array2 h_cliff_colors) ?_
  refine RW.bind (RW.int8 h_passable_terrain) ?_
  refine RW.bind (RW.int8 h_impassable_terrain) ?_
  refine RW.bind (RW.int8 h_is_animated) ?_
  refine RW.bind (RW.int16 h_animation_frames) ?_
  refine RW.bind (RW.int16 h_pause_frames) ?_
  refine RW.bind (RW.float h_interval) ?_
  refine RW.bind (RW.float h_pause_between_loops) ?_
  refine RW.bind (RW.int16 h_frame) ?_
  refine RW.bind (RW.int16 h_draw_frame) ?_
  refine RW.bind (RW.float h_animate_last) ?_
  refine RW.bind (RW.int8 h_frame_changed) ?_
  refine RW.bind (RW.int8 h_drawn) ?_
  refine RW.bind (RW.classArray (by rw [h_frame_data.1]; rfl) fun y hy => FrameData.rw (h_frame_data.2 y hy)) ?_
  refine RW.bind (RW.int16 h_terrain_to_draw) ?_
  refine RW.bind (RW.int16Array2 h_terrain_dimensions) ?_
  refine RW.bind (RW.int16Array (by rw [h_terrain_unit_masked_density.1]; rfl) h_terrain_unit_masked_density.2) ?_
  refine RW.bind (RW.int16Array (by rw [h_terrain_unit_id.1]; rfl) h_terrain_unit_id.2) ?_
  refine RW.bind (RW.int16Array (by rw [h_terrain_unit_density.1]; rfl) h_terrain_unit_density.2) ?_
  refine RW.bind (RW.int8Array (by rw [h_terrain_unit_centering.1]; rfl) h_terrain_unit_centering.2) ?_
  refine RW.bind (RW.int16 h_number_of_terrain_units_used) ?_
  refine RW.bind (RW.int16 h_phantom) ?_
  exact RW.pure rfl

theorem Terrain.good (v : Version) :
    Good v Terrain.fromBytes (Terrain.WF v) (fun x bs => Terrain.toBytes v x = .ok bs) := by
  unfold Terrain.fromBytes
  refine Good.bind Good.int8 fun enabled h_enabled => ?_
  refine Good.bind Good.int8 fun random h_random => ?_
  refine Good.bind Good.int8 fun is_water h_is_water => ?_
  refine Good.bind Good.int8 fun hide_in_editor h_hide_in_editor => ?_
  refine Good.bind Good.int32 fun string_id h_string_id => ?_
  refine Good.bind Good.debugString fun name h_name => ?_
  refine Good.bind Good.debugString fun name_2 h_name_2 => ?_
  refine Good.bind Good.int32 fun slp h_slp => ?_
  refine Good.bind Good.int32 fun shape_ptr h_shape_ptr => ?_
  refine Good.bind Good.int32 fun sound_id h_sound_id => ?_
  refine Good.bind Good.uint32 fun wwise_sound_id h_wwise_sound_id => ?_
  refine Good.bind Good.uint32 fun wwise_sound_stop_id h_wwise_sound_stop_id => ?_
  refine Good.bind Good.int32 fun blend_priority h_blend_priority => ?_
  refine Good.bind Good.int32 fun blend_type h_blend_type => ?_
  refine Good.bind Good.debugString fun overlay_mask_name h_overlay_mask_name => ?_
  refine Good.bind Good.int8Array3 fun colors h_colors => ?_
  refine Good.bind Good.int8Array2 fun cliff_colors h_cliff_colors => ?_
  refine Good.bind Good.int8 fun passable_terrain h_passable_terrain => ?_
  refine Good.bind Good.int8 fun impassable_terrain h_impassable_terrain => ?_
  refine Good.bind Good.int8 fun is_animated h_is_animated => ?_
  refine Good.bind Good.int16 fun animation_frames h_animation_frames => ?_
  refine Good.bind Good.int16 fun pause_frames h_pause_frames => ?_
  refine Good.bind Good.float fun interval h_interval => ?_
  refine Good.bind Good.float fun pause_between_loops h_pause_between_loops => ?_
  refine Good.bind Good.int16 fun frame h_frame => ?_
  refine Good.bind Good.int16 fun draw_frame h_draw_frame => ?_
  refine Good.bind Good.float fun animate_last h_animate_last => ?_
  refine Good.bind Good.int8 fun frame_changed h_frame_changed => ?_
  refine Good.bind Good.int8 fun drawn h_drawn => ?_
  refine Good.bind (Good.classArray _ (FrameData.good v)) fun frame_data h_frame_data => ?_
  refine Good.bind Good.int16 fun terrain_to_draw h_terrain_to_draw => ?_
  refine Good.bind Good.int16Array2 fun terrain_dimensions h_terrain_dimensions => ?_
  refine Good.bind (Good.int16Array _) fun terrain_unit_masked_density h_terrain_unit_masked_density => ?_
  refine Good.bind (Good.int16Array _) fun terrain_unit_id h_terrain_unit_id => ?_
  refine Good.bind (Good.int16Array _) fun terrain_unit_density h_terrain_unit_density => ?_
  refine Good.bind (Good.int8Array _) fun terrain_unit_centering h_terrain_unit_centering => ?_
  refine Good.bind Good.int16 fun number_of_terrain_units_used h_number_of_terrain_units_used => ?_
  refine Good.bind Good.int16 fun phantom h_phantom => ?_
  refine Good.pure ⟨h_enabled, h_random, h_is_water, h_hide_in_editor, h_string_id, h_name, h_name_2, h_slp, h_shape_ptr, h_sound_id, h_wwise_sound_id, h_wwise_sound_stop_id, h_blend_priority, h_blend_type, h_overlay_mask_name, h_colors, h_cliff_colors, h_passable_terrain, h_impassable_terrain, h_is_animated, h_animation_frames, h_pause_frames, h_interval, h_pause_between_loops, h_frame, h_draw_frame, h_animate_last, h_frame_changed, h_drawn, h_frame_data, h_terrain_to_draw, h_terrain_dimensions, h_terrain_unit_masked_density, h_terrain_unit_id, h_terrain_unit_density, h_terrain_unit_centering, h_number_of_terrain_units_used, h_phantom⟩ ?_
  rintro b37 k37 b36 k36 b35 ⟨l35, k35⟩ b34 ⟨l34, k34⟩ b33 ⟨l33, k33⟩ b32 ⟨l32, k32⟩ b31 k31 b30 k30 b29 ⟨l29, k29⟩ b28 k28 b27 k27 b26 k26 b25 k25 b24 k24 b23 k23 b22 k22 b21 k21 b20 k20 b19 k19 b18 k18 b17 k17 b16 k16 b15 k15 b14 k14 b13 k13 b12 k12 b11 k11 b10 k10 b9 k9 b8 k8 b7 k7 b6 k6 b5 k5 b4 k4 b3 k3 b2 k2 b1 k1 b0 k0
  unfold Terrain.toBytes
  exact joinB_cons_ok k0 (joinB_cons_ok k1 (joinB_cons_ok k2 (joinB_cons_ok k3 (joinB_cons_ok k4 (joinB_cons_ok k5 (joinB_cons_ok k6 (joinB_cons_ok k7 (joinB_cons_ok k8 (joinB_cons_ok k9 (joinB_cons_ok k10 (joinB_cons_ok k11 (joinB_cons_ok k12 (joinB_cons_ok k13 (joinB_cons_ok k14 (joinB_cons_ok k15 (joinB_cons_ok k16 (joinB_cons_ok k17 (joinB_cons_ok k18 (joinB_cons_ok k19 (joinB_cons_ok k20 (joinB_cons_ok k21 (joinB_cons_ok k22 (joinB_cons_ok k23 (joinB_cons_ok k24 (joinB_cons_ok k25 (joinB_cons_ok k26 (joinB_cons_ok k27 (joinB_cons_ok k28 (joinB_cons_ok k29 (joinB_cons_ok k30 (joinB_cons_ok k31 (joinB_cons_ok k32 (joinB_cons_ok k33 (joinB_cons_ok k34 (joinB_cons_ok k35 (joinB_cons_ok k36 (joinB_cons_ok k37 rfl)))))))))))))))))))))))))))))))))))))

theorem TileSize.rw {v : Version} {x : TileSize} (h : TileSize.WF v x) :
    RW v TileSize.fromBytes (TileSize.toBytes v x) x := by
  obtain ⟨x_width, x_height, x_delta_y⟩ := x
  obtain ⟨h_width, h_height, h_delta_y⟩ := h
  dsimp only at h_width h_height h_delta_y
  unfold TileSize.fromBytes TileSize.toBytes
  refine RW.bind (RW.int16 h_width) ?_
  refine RW.bind (RW.int16 h_height) ?_
  refine RW.bind (RW.int16 h_delta_y) ?_
  exact RW.pure rfl

theorem TileSize.good (v : Version) :
    Good v TileSize.fromBytes (TileSize.WF v) (fun x bs => TileSize.toBytes v x = .ok bs) := by
  unfold TileSize.fromBytes
  refine Good.bind Good.int16 fun width h_width => ?_
  refine Good.bind Good.int16 fun height h_height => ?_
  refine Good.bind Good.int16 fun delta_y h_delta_y => ?_
  refine Good.pure ⟨h_width, h_height, h_delta_y⟩ ?_
  rintro b2 k2 b1 k1 b0 k0
  unfold TileSize.toBytes
  exact joinB_cons_ok k0 (joinB_cons_ok k1 (joinB_cons_ok k2 rfl))

theorem TerrainBlock.rw {v : Version} {x : TerrainBlock} (h : TerrainBlock.WF v x) :
    RW v TerrainBlock.fromBytes (TerrainBlock.toBytes v x) x := by
  obtain ⟨x_virtual_function_ptr, x_map_pointer, x_map_width, x_map_height, x_world_width, x_world_height, x_tile_sizes, x_padding_ts, x_terrains, x_map_min_x, x_map_min_y, x_map_max_x, x_map_max_y, x_map_max_x_plus_1, x_map_max_y_plus_1, x_terrains_used_2, x_borders_used, x_max_terrain, x_tile_width, x_tile_height, x_tile_half_height, x_tile_half_width, x_elev_height, x_cur_row, x_cur_col, x_block_beg_row, x_block_end_row, x_block_beg_col, x_block_end_col, x_search_map_ptr, x_search_map_rows_ptr, x_any_frame_change, x_map_visible_flag, x_fog_flag⟩ := x
  obtain ⟨h_virtual_function_ptr, h_map_pointer, h_map_width, h_map_height, h_world_width, h_world_height, h_tile_sizes, h_padding_ts, h_terrains, h_map_min_x, h_map_min_y, h_map_max_x, h_map_max_y, h_map_max_x_plus_1, h_map_max_y_plus_1, h_terrains_used_2, h_borders_used, h_max_terrain, h_tile_width, h_tile_height, h_tile_half_height, h_tile_half_width, h_elev_height, h_cur_row, h_cur_col, h_block_beg_row, h_block_end_row, h_block_beg_col, h_block_end_col, h_search_map_ptr, h_search_map_rows_ptr, h_any_frame_change, h_map_visible_flag, h_fog_flag⟩ := h
  dsimp only at h_virtual_function_ptr h_map_pointer h_map_width h_map_height h_world_width h_world_height h_tile_sizes h_padding_ts h_terrains h_map_min_x h_map_min_y h_map_max_x h_map_max_y h_map_max_x_plus_1 h_map_max_y_plus_1 h_terrains_used_2 h_borders_used h_max_terrain h_tile_width h_tile_height h_tile_half_height h_tile_half_width h_elev_height h_cur_row h_cur_col h_block_beg_row h_block_end_row h_block_beg_col h_block_end_col h_search_map_ptr h_search_map_rows_ptr h_any_frame_change h_map_visible_flag h_fog_flag
  unfold TerrainBlock.fromBytes TerrainBlock.toBytes
  refine RW.bind (RW.uint32 h_virtual_function_ptr) ?_
  refine RW.bind (RW.uint32 h_map_pointer) ?_
  refine RW.bind (RW.int32 h_map_width) ?_
  refine RW.bind (RW.int32 h_map_height) ?_
  refine RW.bind (RW.int32 h_world_width) ?_
  refine RW.bind (RW.int32 h_world_height) ?_
  refine RW.bind (RW.classArray (by rw [h_tile_sizes.1]; rfl) fun y hy => TileSize.rw (h_tile_sizes.2 y hy)) ?_
  refine RW.bind (RW.int16 h_padding_ts) ?_
  refine RW.bind (RW.classArray (by rw [h_terrains.1]; rfl) fun y hy => Terrain.rw (h_terrains.2 y hy)) ?_
  refine RW.bind (RW.float h_map_min_x) ?_
  refine RW.bind (RW.float h_map_min_y) ?_
  refine RW.bind (RW.float h_map_max_x) ?_
  refine RW.bind (RW.float h_map_max_y) ?_
  refine RW.bind (RW.float h_map_max_x_plus_1) ?_
  refine RW.bind (RW.float h_map_max_y_plus_1) ?_
  refine RW.bind (RW.int16 h_terrains_used_2) ?_
  refine RW.bind (RW.int16 h_borders_used) ?_
  refine RW.bind (RW.int16 h_max_terrain) ?_
  refine RW.bind (RW.int16 h_tile_width) ?_
  refine RW.bind (RW.int16 h_tile_height) ?_
  refine RW.bind (RW.int16 h_tile_half_height) ?_
  refine RW.bind (RW.int16 h_tile_half_width) ?_
  refine RW.bind (RW.int16 h_elev_height) ?_
  refine RW.bind (RW.int16 h_cur_row) ?_
  refine RW.bind (RW.int16 h_cur_col) ?_
  refine RW.bind (RW.int16 h_block_beg_row) ?_
  refine RW.bind (RW.int16 h_block_end_row) ?_
  refine RW.bind (RW.int16 h_block_beg_col) ?_
  refine RW.bind (RW.int16 h_block_end_col) ?_
  refine RW.bind (RW.uint32 h_search_map_ptr) ?_
  refine RW.bind (RW.uint32 h_search_map_rows_ptr) ?_
  refine RW.bind (RW.int8 h_any_frame_change) ?_
  refine RW.bind (RW.int8 h_map_visible_flag) ?_
  refine RW.bind (RW.int8 h_fog_flag) ?_
  exact RW.pure rfl

theorem TerrainBlock.good (v : Version) :
    Good v TerrainBlock.fromBytes (TerrainBlock.WF v) (fun x bs => TerrainBlock.toBytes v x = .ok bs) := by
  unfold TerrainBlock.fromBytes
  refine Good.bind Good.uint32 fun virtual_function_ptr h_virtual_function_ptr => ?_
  refine Good.bind Good.uint32 fun map_pointer h_map_pointer => ?_
  refine Good.bind Good.int32 fun map_width h_map_width => ?_
  refine Good.bind Good.int32 fun map_height h_map_height => ?_
  refine Good.bind Good.int32 fun world_width h_world_width => ?_
  refine Good.bind Good.int32 fun world_height h_world_height => ?_
  refine Good.bind (Good.classArray _ (TileSize.good v)) fun tile_sizes h_tile_sizes => ?_
  refine Good.bind Good.int16 fun padding_ts h_padding_ts => ?_
  refine Good.bind (Good.classArray _ (Terrain.good v)) fun terrains h_terrains => ?_
  refine Good.bind Good.float fun map_min_x h_map_min_x => ?_
  refine Good.bind Good.float fun map_min_y h_map_min_y => ?_
  refine Good.bind Good.float fun map_max_x h_map_max_x => ?_
  refine Good.bind Good.float fun map_max_y h_map_max_y => ?_
  refine Good.bind Good.float fun map_max_x_plus_1 h_map_max_x_plus_1 => ?_
  refine Good.bind Good.float fun map_max_y_plus_1 h_map_max_y_plus_1 => ?_
  refine Good.bind Good.int16 fun terrains_used_2 h_terrains_used_2 => ?_
  refine Good.bind Good.int16 fun borders_used h_borders_used => ?_
  refine Good.bind Good.int16 fun max_terrain h_max_terrain => ?_
  refine Good.bind Good.int16 fun tile_width h_tile_width => ?_
  refine Good.bind Good.int16 fun tile_height h_tile_height => ?_
  refine Good.bind Good.int16 fun tile_half_height h_tile_half_height => ?_
  refine Good.bind Good.int16 fun tile_half_width h_tile_half_width => ?_
  refine Good.bind Good.int16 fun elev_height h_elev_height => ?_
  refine Good.bind Good.int16 fun cur_row h_cur_row => ?_
  refine Good.bind Good.int16 fun cur_col h_cur_col => ?_
  refine Good.bind Good.int16 fun block_beg_row h_block_beg_row => ?_
  refine Good.bind Good.int16 fun block_end_row h_block_end_row => ?_
  refine Good.bind Good.int16 fun block_beg_col h_block_beg_col => ?_
  refine Good.bind Good.int16 fun block_end_col h_block_end_col => ?_
  refine Good.bind Good.uint32 fun search_map_ptr h_search_map_ptr => ?_
  refine Good.bind Good.uint32 fun search_map_rows_ptr h_search_map_rows_ptr => ?_
  refine Good.bind Good.int8 fun any_frame_change h_any_frame_change => ?_
  refine Good.bind Good.int8 fun map_visible_flag h_map_visible_flag => ?_
  refine Good.bind Good.int8 fun fog_flag h_fog_flag => ?_
  refine Good.pure ⟨h_virtual_function_ptr, h_map_pointer, h_map_width, h_map_height, h_world_width, h_world_height, h_tile_sizes, h_padding_ts, h_terrains, h_map_min_x, h_map_min_y, h_map_max_x, h_map_max_y, h_map_max_x_plus_1, h_map_max_y_plus_1, h_terrains_used_2, h_borders_used, h_max_terrain, h_tile_width, h_tile_height, h_tile_half_height, h_tile_half_width, h_elev_height, h_cur_row, h_cur_col, h_block_beg_row, h_block_end_row, h_block_beg_col, h_block_end_col, h_search_map_ptr, h_search_map_rows_ptr, h_any_frame_change, h_map_visible_flag, h_fog_flag⟩ ?_
  rintro b33 k33 b32 k32 b31 k31 b30 k30 b29 k29 b28 k28 b27 k27 b26 k26 b25 k25 b24 k24 b23 k23 b22 k22 b21 k21 b20 k20 b19 k19 b18 k18 b17 k17 b16 k16 b15 k15 b14 k14 b13 k13 b12 k12 b11 k11 b10 k10 b9 k9 b8 ⟨l8, k8⟩ b7 k7 b6 ⟨l6, k6⟩ b5 k5 b4 k4 b3 k3 b2 k2 b1 k1 b0 k0
  unfold TerrainBlock.toBytes
  exact joinB_cons_ok k0 (joinB_cons_ok k1 (joinB_cons_ok k2 (joinB_cons_ok k3 (joinB_cons_ok k4 (joinB_cons_ok k5 (joinB_cons_ok k6 (joinB_cons_ok k7 (joinB_cons_ok k8 (joinB_cons_ok k9 (joinB_cons_ok k10 (joinB_cons_ok k11 (joinB_cons_ok k12 (joinB_cons_ok k13 (joinB_cons_ok k14 (joinB_cons_ok k15 (joinB_cons_ok k16 (joinB_cons_ok k17 (joinB_cons_ok k18 (joinB_cons_ok k19 (joinB_cons_ok k20 (joinB_cons_ok k21 (joinB_cons_ok k22 (joinB_cons_ok k23 (joinB_cons_ok k24 (joinB_cons_ok k25 (joinB_cons_ok k26 (joinB_cons_ok k27 (joinB_cons_ok k28 (joinB_cons_ok k29 (joinB_cons_ok k30 (joinB_cons_ok k31 (joinB_cons_ok k32 (joinB_cons_ok k33 rfl)))))))))))))))))))))))))))))))))

end Genie
