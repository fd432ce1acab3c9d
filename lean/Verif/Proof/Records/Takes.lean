import Verif.Proof.TakesPrims
import Verif.Proof.Records.Top
/-! # Whatever is accepted for the items of a record is read: the plain records (obtained from the proofs of `X.rw` by textual substitution) -/

namespace Genie

theorem EffectCommand.takes {v : Version} {x : EffectCommand} (h : EffectCommand.WF v x) :
    Takes v EffectCommand.fromBytes (EffectCommand.layout v x) x := by
  obtain ⟨x_type, x_a, x_b, x_c, x_d⟩ := x
  obtain ⟨h_type, h_a, h_b, h_c, h_d⟩ := h
  dsimp only at h_type h_a h_b h_c h_d
  unfold EffectCommand.fromBytes EffectCommand.layout
  refine Takes.bind (Takes.int8 h_type) ?_
  refine Takes.bind (Takes.int16 h_a) ?_
  refine Takes.bind (Takes.int16 h_b) ?_
  refine Takes.bind (Takes.int16 h_c) ?_
  refine Takes.bind (Takes.float h_d) ?_
  exact Takes.pure rfl

theorem Effect.takes {v : Version} {x : Effect} (h : Effect.WF v x) :
    Takes v Effect.fromBytes (Effect.layout v x) x := by
  obtain ⟨x_name, x_effect_commands⟩ := x
  obtain ⟨h_name, h_effect_commands⟩ := h
  dsimp only at h_name h_effect_commands
  unfold Effect.fromBytes Effect.layout
  refine Takes.bind (Takes.debugString h_name) ?_
  refine TakesR.bind (TakesR.countI16 h_effect_commands.1) fun _ _ => ?_
  refine Takes.bind (Takes.classArray (by assumption) fun y hy => EffectCommand.takes (h_effect_commands.2 y hy)) ?_
  exact Takes.pure rfl

theorem SoundItem.takes {v : Version} {x : SoundItem} (h : SoundItem.WF v x) :
    Takes v SoundItem.fromBytes (SoundItem.layout v x) x := by
  obtain ⟨x_filename, x_resource_id, x_probability, x_civilization, x_icon_set⟩ := x
  obtain ⟨h_filename, h_resource_id, h_probability, h_civilization, h_icon_set⟩ := h
  dsimp only at h_filename h_resource_id h_probability h_civilization h_icon_set
  unfold SoundItem.fromBytes SoundItem.layout
  refine Takes.bind (Takes.debugString h_filename) ?_
  refine Takes.bind (Takes.int32 h_resource_id) ?_
  refine Takes.bind (Takes.int16 h_probability) ?_
  refine Takes.bind (Takes.int16 h_civilization) ?_
  refine Takes.bind (Takes.int16 h_icon_set) ?_
  exact Takes.pure rfl

theorem Sound.takes {v : Version} {x : Sound} (h : Sound.WF v x) :
    Takes v Sound.fromBytes (Sound.layout v x) x := by
  obtain ⟨x_id, x_play_delay, x_cache_time, x_total_probability, x_items⟩ := x
  obtain ⟨h_id, h_play_delay, h_cache_time, h_total_probability, h_items⟩ := h
  dsimp only at h_id h_play_delay h_cache_time h_total_probability h_items
  unfold Sound.fromBytes Sound.layout
  refine Takes.bind (Takes.int16 h_id) ?_
  refine Takes.bind (Takes.int16 h_play_delay) ?_
  refine TakesR.bind (TakesR.countI16 h_items.1) fun _ _ => ?_
  refine Takes.bind (Takes.int32 h_cache_time) ?_
  refine Takes.bind (Takes.int16 h_total_probability) ?_
  refine Takes.bind (Takes.classArray (by assumption) fun y hy => SoundItem.takes (h_items.2 y hy)) ?_
  exact Takes.pure rfl

theorem PlayerColour.takes {v : Version} {x : PlayerColour} (h : PlayerColour.WF v x) :
    Takes v PlayerColour.fromBytes (PlayerColour.layout v x) x := by
  obtain ⟨x_id, x_player_color_base, x_unit_outline_color, x_unit_selection_color_1, x_unit_selection_color_2, x_minimap_color, x_minimap_color_2, x_minimap_color_3, x_statistics_text⟩ := x
  obtain ⟨h_id, h_player_color_base, h_unit_outline_color, h_unit_selection_color_1, h_unit_selection_color_2, h_minimap_color, h_minimap_color_2, h_minimap_color_3, h_statistics_text⟩ := h
  dsimp only at h_id h_player_color_base h_unit_outline_color h_unit_selection_color_1 h_unit_selection_color_2 h_minimap_color h_minimap_color_2 h_minimap_color_3 h_statistics_text
  unfold PlayerColour.fromBytes PlayerColour.layout
  refine Takes.bind (Takes.int32 h_id) ?_
  refine Takes.bind (Takes.int32 h_player_color_base) ?_
  refine Takes.bind (Takes.int32 h_unit_outline_color) ?_
  refine Takes.bind (Takes.int32 h_unit_selection_color_1) ?_
  refine Takes.bind (Takes.int32 h_unit_selection_color_2) ?_
  refine Takes.bind (Takes.int32 h_minimap_color) ?_
  refine Takes.bind (Takes.int32 h_minimap_color_2) ?_
  refine Takes.bind (Takes.int32 h_minimap_color_3) ?_
  refine Takes.bind (Takes.int32 h_statistics_text) ?_
  exact Takes.pure rfl

theorem GraphicDelta.takes {v : Version} {x : GraphicDelta} (h : GraphicDelta.WF v x) :
    Takes v GraphicDelta.fromBytes (GraphicDelta.layout v x) x := by
  obtain ⟨x_graphic_id, x_padding_1, x_sprite_ptr, x_offset_x, x_offset_y, x_display_angle, x_padding_2⟩ := x
  obtain ⟨h_graphic_id, h_padding_1, h_sprite_ptr, h_offset_x, h_offset_y, h_display_angle, h_padding_2⟩ := h
  dsimp only at h_graphic_id h_padding_1 h_sprite_ptr h_offset_x h_offset_y h_display_angle h_padding_2
  unfold GraphicDelta.fromBytes GraphicDelta.layout
  refine Takes.bind (Takes.int16 h_graphic_id) ?_
  refine Takes.bind (Takes.int16 h_padding_1) ?_
  refine Takes.bind (Takes.int32 h_sprite_ptr) ?_
  refine Takes.bind (Takes.int16 h_offset_x) ?_
  refine Takes.bind (Takes.int16 h_offset_y) ?_
  refine Takes.bind (Takes.int16 h_display_angle) ?_
  refine Takes.bind (Takes.int16 h_padding_2) ?_
  exact Takes.pure rfl

theorem GraphicAngleSound.takes {v : Version} {x : GraphicAngleSound} (h : GraphicAngleSound.WF v x) :
    Takes v GraphicAngleSound.fromBytes (GraphicAngleSound.layout v x) x := by
  obtain ⟨x_frame_num, x_sound_id, x_wwise_sound_id, x_frame_num_2, x_sound_id_2, x_wwise_sound_id_2, x_frame_num_3, x_sound_id_3, x_wwise_sound_id_3⟩ := x
  obtain ⟨h_frame_num, h_sound_id, h_wwise_sound_id, h_frame_num_2, h_sound_id_2, h_wwise_sound_id_2, h_frame_num_3, h_sound_id_3, h_wwise_sound_id_3⟩ := h
  dsimp only at h_frame_num h_sound_id h_wwise_sound_id h_frame_num_2 h_sound_id_2 h_wwise_sound_id_2 h_frame_num_3 h_sound_id_3 h_wwise_sound_id_3
  unfold GraphicAngleSound.fromBytes GraphicAngleSound.layout
  refine Takes.bind (Takes.int16 h_frame_num) ?_
  refine Takes.bind (Takes.int16 h_sound_id) ?_
  refine Takes.bind (Takes.int32 h_wwise_sound_id) ?_
  refine Takes.bind (Takes.int16 h_frame_num_2) ?_
  refine Takes.bind (Takes.int16 h_sound_id_2) ?_
  refine Takes.bind (Takes.int32 h_wwise_sound_id_2) ?_
  refine Takes.bind (Takes.int16 h_frame_num_3) ?_
  refine Takes.bind (Takes.int16 h_sound_id_3) ?_
  refine Takes.bind (Takes.int32 h_wwise_sound_id_3) ?_
  exact Takes.pure rfl

theorem TerrainPassGraphic.takes {v : Version} {x : TerrainPassGraphic} (h : TerrainPassGraphic.WF v x) :
    Takes v TerrainPassGraphic.fromBytes (TerrainPassGraphic.layout v x) x := by
  obtain ⟨x_exit_tile_sprite_id, x_enter_tile_sprite_id, x_walk_tile_sprite_id, x_walk_sprite_rate⟩ := x
  obtain ⟨h_exit_tile_sprite_id, h_enter_tile_sprite_id, h_walk_tile_sprite_id, h_walk_sprite_rate⟩ := h
  dsimp only at h_exit_tile_sprite_id h_enter_tile_sprite_id h_walk_tile_sprite_id h_walk_sprite_rate
  unfold TerrainPassGraphic.fromBytes TerrainPassGraphic.layout
  refine Takes.bind (Takes.int32 h_exit_tile_sprite_id) ?_
  refine Takes.bind (Takes.int32 h_enter_tile_sprite_id) ?_
  refine Takes.bind (Takes.int32 h_walk_tile_sprite_id) ?_
  refine Takes.bind (Takes.int32 h_walk_sprite_rate) ?_
  exact Takes.pure rfl

theorem ResourceStorage.takes {v : Version} {x : ResourceStorage} (h : ResourceStorage.WF v x) :
    Takes v ResourceStorage.fromBytes (ResourceStorage.layout v x) x := by
  obtain ⟨x_type, x_amount, x_flag⟩ := x
  obtain ⟨h_type, h_amount, h_flag⟩ := h
  dsimp only at h_type h_amount h_flag
  unfold ResourceStorage.fromBytes ResourceStorage.layout
  refine Takes.map (Takes.unpack (cs := [.h, .f, .b]) (by decide) (by decide)
      ⟨h_type, h_amount, h_flag, trivial⟩ (by decide)) ?_
  dsimp only [popInt, popFloat, popDone, List.map, List.cons_append, List.nil_append]
  exact Fetch.pure rfl

theorem DamageGraphic.takes {v : Version} {x : DamageGraphic} (h : DamageGraphic.WF v x) :
    Takes v DamageGraphic.fromBytes (DamageGraphic.layout v x) x := by
  obtain ⟨x_graphic_id, x_damage_percent, x_apply_mode⟩ := x
  obtain ⟨h_graphic_id, h_damage_percent, h_apply_mode⟩ := h
  dsimp only at h_graphic_id h_damage_percent h_apply_mode
  unfold DamageGraphic.fromBytes DamageGraphic.layout
  refine Takes.map (Takes.unpack (cs := [.h, .h, .b]) (by decide) (by decide)
      ⟨h_graphic_id, h_damage_percent, h_apply_mode, trivial⟩ (by decide)) ?_
  dsimp only [popInt, popFloat, popDone, List.map, List.cons_append, List.nil_append]
  exact Fetch.pure rfl

theorem DeadFish.takes {v : Version} {x : DeadFish} (h : DeadFish.WF v x) :
    Takes v DeadFish.fromBytes (DeadFish.layout v x) x := by
  obtain ⟨x_walking_graphic, x_running_graphic, x_rotation_speed, x_old_size_class, x_tracking_unit, x_tracking_unit_mode, x_tracking_unit_density, x_old_move_algorithm, x_turn_radius, x_turn_radius_speed, x_max_yaw_per_second_moving, x_stationary_yaw_revolution_time, x_max_yaw_per_second_stationary, x_min_collision_size_multiplier⟩ := x
  obtain ⟨h_walking_graphic, h_running_graphic, h_rotation_speed, h_old_size_class, h_tracking_unit, h_tracking_unit_mode, h_tracking_unit_density, h_old_move_algorithm, h_turn_radius, h_turn_radius_speed, h_max_yaw_per_second_moving, h_stationary_yaw_revolution_time, h_max_yaw_per_second_stationary, h_min_collision_size_multiplier⟩ := h
  dsimp only at h_walking_graphic h_running_graphic h_rotation_speed h_old_size_class h_tracking_unit h_tracking_unit_mode h_tracking_unit_density h_old_move_algorithm h_turn_radius h_turn_radius_speed h_max_yaw_per_second_moving h_stationary_yaw_revolution_time h_max_yaw_per_second_stationary h_min_collision_size_multiplier
  unfold DeadFish.fromBytes DeadFish.layout
  refine Takes.map (Takes.unpack (cs := [.h, .h, .f, .b, .h, .b, .f, .b, .f, .f, .f, .f, .f, .f]) (by decide) (by decide)
      ⟨h_walking_graphic, h_running_graphic, h_rotation_speed, h_old_size_class, h_tracking_unit, h_tracking_unit_mode, h_tracking_unit_density, h_old_move_algorithm, h_turn_radius, h_turn_radius_speed, h_max_yaw_per_second_moving, h_stationary_yaw_revolution_time, h_max_yaw_per_second_stationary, h_min_collision_size_multiplier, trivial⟩ (by decide)) ?_
  dsimp only [popInt, popFloat, popDone, List.map, List.cons_append, List.nil_append]
  exact Fetch.pure rfl

theorem AttackOrArmor.takes {v : Version} {x : AttackOrArmor} (h : AttackOrArmor.WF v x) :
    Takes v AttackOrArmor.fromBytes (AttackOrArmor.layout v x) x := by
  obtain ⟨x_class_, x_amount⟩ := x
  obtain ⟨h_class_, h_amount⟩ := h
  dsimp only at h_class_ h_amount
  unfold AttackOrArmor.fromBytes AttackOrArmor.layout
  refine Takes.map (Takes.unpack (cs := [.h, .h]) (by decide) (by decide)
      ⟨h_class_, h_amount, trivial⟩ (by decide)) ?_
  dsimp only [popInt, popFloat, popDone, List.map, List.cons_append, List.nil_append]
  exact Fetch.pure rfl

theorem Projectile.takes {v : Version} {x : Projectile} (h : Projectile.WF v x) :
    Takes v Projectile.fromBytes (Projectile.layout v x) x := by
  obtain ⟨x_projectile_type, x_smart_mode, x_hit_mode, x_vanish_mode, x_area_effect_specials, x_projectile_arc⟩ := x
  obtain ⟨h_projectile_type, h_smart_mode, h_hit_mode, h_vanish_mode, h_area_effect_specials, h_projectile_arc⟩ := h
  dsimp only at h_projectile_type h_smart_mode h_hit_mode h_vanish_mode h_area_effect_specials h_projectile_arc
  unfold Projectile.fromBytes Projectile.layout
  refine Takes.map (Takes.unpack (cs := [.b, .b, .b, .b, .b, .f]) (by decide) (by decide)
      ⟨h_projectile_type, h_smart_mode, h_hit_mode, h_vanish_mode, h_area_effect_specials, h_projectile_arc, trivial⟩ (by decide)) ?_
  dsimp only [popInt, popFloat, popDone, List.map, List.cons_append, List.nil_append]
  exact Fetch.pure rfl

theorem ResourceCost.takes {v : Version} {x : ResourceCost} (h : ResourceCost.WF v x) :
    Takes v ResourceCost.fromBytes (ResourceCost.layout v x) x := by
  obtain ⟨x_type, x_amount, x_flag⟩ := x
  obtain ⟨h_type, h_amount, h_flag⟩ := h
  dsimp only at h_type h_amount h_flag
  unfold ResourceCost.fromBytes ResourceCost.layout
  refine Takes.map (Takes.unpack (cs := [.h, .h, .h]) (by decide) (by decide)
      ⟨h_type, h_amount, h_flag, trivial⟩ (by decide)) ?_
  dsimp only [popInt, popFloat, popDone, List.map, List.cons_append, List.nil_append]
  exact Fetch.pure rfl

theorem BuildingAnnex.takes {v : Version} {x : BuildingAnnex} (h : BuildingAnnex.WF v x) :
    Takes v BuildingAnnex.fromBytes (BuildingAnnex.layout v x) x := by
  obtain ⟨x_unit_id, x_misplacement_x, x_misplacement_y⟩ := x
  obtain ⟨h_unit_id, h_misplacement_x, h_misplacement_y⟩ := h
  dsimp only at h_unit_id h_misplacement_x h_misplacement_y
  unfold BuildingAnnex.fromBytes BuildingAnnex.layout
  refine Takes.map (Takes.unpack (cs := [.h, .f, .f]) (by decide) (by decide)
      ⟨h_unit_id, h_misplacement_x, h_misplacement_y, trivial⟩ (by decide)) ?_
  dsimp only [popInt, popFloat, popDone, List.map, List.cons_append, List.nil_append]
  exact Fetch.pure rfl

theorem Building.takes {v : Version} {x : Building} (h : Building.WF v x) :
    Takes v Building.fromBytes (Building.layout v x) x := by
  obtain ⟨x_construction_graphic_id, x_snow_graphic_id, x_destruction_graphic_id, x_destruction_rubble_graphic_id, x_researching_graphic, x_research_completed_graphic, x_adjacent_mode, x_graphics_angle, x_disappears_when_built, x_stack_unit_id, x_foundation_terrain_id, x_old_overlap_id, x_tech_id, x_can_burn, x_annexes, x_head_unit, x_transform_unit, x_transform_sound, x_construction_sound, x_wwise_transform_sound_id, x_wwise_construction_sound_id, x_garrison_type, x_garrison_heal_rate, x_garrison_repair_rate, x_pile_unit, x_looting_table⟩ := x
  obtain ⟨h_construction_graphic_id, h_snow_graphic_id, h_destruction_graphic_id, h_destruction_rubble_graphic_id, h_researching_graphic, h_research_completed_graphic, h_adjacent_mode, h_graphics_angle, h_disappears_when_built, h_stack_unit_id, h_foundation_terrain_id, h_old_overlap_id, h_tech_id, h_can_burn, h_annexes, h_head_unit, h_transform_unit, h_transform_sound, h_construction_sound, h_wwise_transform_sound_id, h_wwise_construction_sound_id, h_garrison_type, h_garrison_heal_rate, h_garrison_repair_rate, h_pile_unit, h_looting_table⟩ := h
  dsimp only at h_construction_graphic_id h_snow_graphic_id h_destruction_graphic_id h_destruction_rubble_graphic_id h_researching_graphic h_research_completed_graphic h_adjacent_mode h_graphics_angle h_disappears_when_built h_stack_unit_id h_foundation_terrain_id h_old_overlap_id h_tech_id h_can_burn h_annexes h_head_unit h_transform_unit h_transform_sound h_construction_sound h_wwise_transform_sound_id h_wwise_construction_sound_id h_garrison_type h_garrison_heal_rate h_garrison_repair_rate h_pile_unit h_looting_table
  obtain ⟨hl_looting_table, h_looting_table⟩ := h_looting_table
  obtain ⟨x_looting_table_0, x_looting_table_1, x_looting_table_2, x_looting_table_3, x_looting_table_4, x_looting_table_5, rfl⟩ := length_eq_6 hl_looting_table
  unfold Building.fromBytes Building.layout
  refine Takes.bind (Takes.unpack (cs := [.h, .h, .h, .h, .h, .h, .b, .h, .b, .h, .h, .h, .h, .b]) (by decide) (by decide)
      ⟨h_construction_graphic_id, h_snow_graphic_id, h_destruction_graphic_id, h_destruction_rubble_graphic_id, h_researching_graphic, h_research_completed_graphic, h_adjacent_mode, h_graphics_angle, h_disappears_when_built, h_stack_unit_id, h_foundation_terrain_id, h_old_overlap_id, h_tech_id, h_can_burn, trivial⟩ (by decide)) ?_
  dsimp only [popInt, popFloat, popDone, List.map, List.cons_append, List.nil_append]
  refine Takes.bind (Takes.classArray4 h_annexes.1 fun y hy => BuildingAnnex.takes (h_annexes.2 y hy)) ?_
  refine Takes.bind (Takes.unpack (cs := [.h, .h, .h, .h, .l, .l, .b, .f, .f, .h, .b, .b, .b, .b, .b, .b]) (by decide) (by decide)
      ⟨h_head_unit, h_transform_unit, h_transform_sound, h_construction_sound, h_wwise_transform_sound_id, h_wwise_construction_sound_id, h_garrison_type, h_garrison_heal_rate, h_garrison_repair_rate, h_pile_unit, h_looting_table _ (by simp), h_looting_table _ (by simp), h_looting_table _ (by simp), h_looting_table _ (by simp), h_looting_table _ (by simp), h_looting_table _ (by simp), trivial⟩ (by decide)) ?_
  dsimp only [popInt, popFloat, popDone, List.map, List.cons_append, List.nil_append]
  exact Takes.pure rfl

theorem FrameData.takes {v : Version} {x : FrameData} (h : FrameData.WF v x) :
    Takes v FrameData.fromBytes (FrameData.layout v x) x := by
  obtain ⟨x_frame_count, x_angle_count, x_shape_id⟩ := x
  obtain ⟨h_frame_count, h_angle_count, h_shape_id⟩ := h
  dsimp only at h_frame_count h_angle_count h_shape_id
  unfold FrameData.fromBytes FrameData.layout
  refine Takes.bind (Takes.int16 h_frame_count) ?_
  refine Takes.bind (Takes.int16 h_angle_count) ?_
  refine Takes.bind (Takes.int16 h_shape_id) ?_
  exact Takes.pure rfl

theorem Terrain.takes {v : Version} {x : Terrain} (h : Terrain.WF v x) :
    Takes v Terrain.fromBytes (Terrain.layout v x) x := by
  obtain ⟨x_enabled, x_random, x_is_water, x_hide_in_editor, x_string_id, x_name, x_name_2, x_slp, x_shape_ptr, x_sound_id, x_wwise_sound_id, x_wwise_sound_stop_id, x_blend_priority, x_blend_type, x_overlay_mask_name, x_colors, x_cliff_colors, x_passable_terrain, x_impassable_terrain, x_is_animated, x_animation_frames, x_pause_frames, x_interval, x_pause_between_loops, x_frame, x_draw_frame, x_animate_last, x_frame_changed, x_drawn, x_frame_data, x_terrain_to_draw, x_terrain_dimensions, x_terrain_unit_masked_density, x_terrain_unit_id, x_terrain_unit_density, x_terrain_unit_centering, x_number_of_terrain_units_used, x_phantom⟩ := x
  obtain ⟨h_enabled, h_random, h_is_water, h_hide_in_editor, h_string_id, h_name, h_name_2, h_slp, h_shape_ptr, h_sound_id, h_wwise_sound_id, h_wwise_sound_stop_id, h_blend_priority, h_blend_type, h_overlay_mask_name, h_colors, h_cliff_colors, h_passable_terrain, h_impassable_terrain, h_is_animated, h_animation_frames, h_pause_frames, h_interval, h_pause_between_loops, h_frame, h_draw_frame, h_animate_last, h_frame_changed, h_drawn, h_frame_data, h_terrain_to_draw, h_terrain_dimensions, h_terrain_unit_masked_density, h_terrain_unit_id, h_terrain_unit_density, h_terrain_unit_centering, h_number_of_terrain_units_used, h_phantom⟩ := h
  dsimp only at h_enabled h_random h_is_water h_hide_in_editor h_string_id h_name h_name_2 h_slp h_shape_ptr h_sound_id h_wwise_sound_id h_wwise_sound_stop_id h_blend_priority h_blend_type h_overlay_mask_name h_colors h_cliff_colors h_passable_terrain h_impassable_terrain h_is_animated h_animation_frames h_pause_frames h_interval h_pause_between_loops h_frame h_draw_frame h_animate_last h_frame_changed h_drawn h_frame_data h_terrain_to_draw h_terrain_dimensions h_terrain_unit_masked_density h_terrain_unit_id h_terrain_unit_density h_terrain_unit_centering h_number_of_terrain_units_used h_phantom
  unfold Terrain.fromBytes Terrain.layout
  refine Takes.bind (Takes.int8 h_enabled) ?_
  refine Takes.bind (Takes.int8 h_random) ?_
  refine Takes.bind (Takes.int8 h_is_water) ?_
  refine Takes.bind (Takes.int8 h_hide_in_editor) ?_
  refine Takes.bind (Takes.int32 h_string_id) ?_
  refine Takes.bind (Takes.debugString h_name) ?_
  refine Takes.bind (Takes.debugString h_name_2) ?_
  refine Takes.bind (Takes.int32 h_slp) ?_
  refine Takes.bind (Takes.int32 h_shape_ptr) ?_
  refine Takes.bind (Takes.int32 h_sound_id) ?_
  refine Takes.bind (Takes.uint32 h_wwise_sound_id) ?_
  refine Takes.bind (Takes.uint32 h_wwise_sound_stop_id) ?_
  refine Takes.bind (Takes.int32 h_blend_priority) ?_
  refine Takes.bind (Takes.int32 h_blend_type) ?_
  refine Takes.bind (Takes.debugString h_overlay_mask_name) ?_
  refine Takes.bind (Takes.int8Array3 h_colors) ?_
  refine Takes.bind (Takes.int8Array2 h_cliff_colors) ?_
  refine Takes.bind (Takes.int8 h_passable_terrain) ?_
  refine Takes.bind (Takes.int8 h_impassable_terrain) ?_
  refine Takes.bind (Takes.int8 h_is_animated) ?_
  refine Takes.bind (Takes.int16 h_animation_frames) ?_
  refine Takes.bind (Takes.int16 h_pause_frames) ?_
  refine Takes.bind (Takes.float h_interval) ?_
  refine Takes.bind (Takes.float h_pause_between_loops) ?_
  refine Takes.bind (Takes.int16 h_frame) ?_
  refine Takes.bind (Takes.int16 h_draw_frame) ?_
  refine Takes.bind (Takes.float h_animate_last) ?_
  refine Takes.bind (Takes.int8 h_frame_changed) ?_
  refine Takes.bind (Takes.int8 h_drawn) ?_
  refine Takes.bind (Takes.classArray (by rw [h_frame_data.1]; rfl) fun y hy => FrameData.takes (h_frame_data.2 y hy)) ?_
  refine Takes.bind (Takes.int16 h_terrain_to_draw) ?_
  refine Takes.bind (Takes.int16Array2 h_terrain_dimensions) ?_
  refine Takes.bind (Takes.int16Array (by rw [h_terrain_unit_masked_density.1]; rfl) h_terrain_unit_masked_density.2) ?_
  refine Takes.bind (Takes.int16Array (by rw [h_terrain_unit_id.1]; rfl) h_terrain_unit_id.2) ?_
  refine Takes.bind (Takes.int16Array (by rw [h_terrain_unit_density.1]; rfl) h_terrain_unit_density.2) ?_
  refine Takes.bind (Takes.int8Array (by rw [h_terrain_unit_centering.1]; rfl) h_terrain_unit_centering.2) ?_
  refine Takes.bind (Takes.int16 h_number_of_terrain_units_used) ?_
  refine Takes.bind (Takes.int16 h_phantom) ?_
  exact Takes.pure rfl

theorem TileSize.takes {v : Version} {x : TileSize} (h : TileSize.WF v x) :
    Takes v TileSize.fromBytes (TileSize.layout v x) x := by
  obtain ⟨x_width, x_height, x_delta_y⟩ := x
  obtain ⟨h_width, h_height, h_delta_y⟩ := h
  dsimp only at h_width h_height h_delta_y
  unfold TileSize.fromBytes TileSize.layout
  refine Takes.bind (Takes.int16 h_width) ?_
  refine Takes.bind (Takes.int16 h_height) ?_
  refine Takes.bind (Takes.int16 h_delta_y) ?_
  exact Takes.pure rfl

theorem TerrainBlock.takes {v : Version} {x : TerrainBlock} (h : TerrainBlock.WF v x) :
    Takes v TerrainBlock.fromBytes (TerrainBlock.layout v x) x := by
  obtain ⟨x_virtual_function_ptr, x_map_pointer, x_map_width, x_map_height, x_world_width, x_world_height, x_tile_sizes, x_padding_ts, x_terrains, x_map_min_x, x_map_min_y, x_map_max_x, x_map_max_y, x_map_max_x_plus_1, x_map_max_y_plus_1, x_terrains_used_2, x_borders_used, x_max_terrain, x_tile_width, x_tile_height, x_tile_half_height, x_tile_half_width, x_elev_height, x_cur_row, x_cur_col, x_block_beg_row, x_block_end_row, x_block_beg_col, x_block_end_col, x_search_map_ptr, x_search_map_rows_ptr, x_any_frame_change, x_map_visible_flag, x_fog_flag⟩ := x
  obtain ⟨h_virtual_function_ptr, h_map_pointer, h_map_width, h_map_height, h_world_width, h_world_height, h_tile_sizes, h_padding_ts, h_terrains, h_map_min_x, h_map_min_y, h_map_max_x, h_map_max_y, h_map_max_x_plus_1, h_map_max_y_plus_1, h_terrains_used_2, h_borders_used, h_max_terrain, h_tile_width, h_tile_height, h_tile_half_height, h_tile_half_width, h_elev_height, h_cur_row, h_cur_col, h_block_beg_row, h_block_end_row, h_block_beg_col, h_block_end_col, h_search_map_ptr, h_search_map_rows_ptr, h_any_frame_change, h_map_visible_flag, h_fog_flag⟩ := h
  dsimp only at h_virtual_function_ptr h_map_pointer h_map_width h_map_height h_world_width h_world_height h_tile_sizes h_padding_ts h_terrains h_map_min_x h_map_min_y h_map_max_x h_map_max_y h_map_max_x_plus_1 h_map_max_y_plus_1 h_terrains_used_2 h_borders_used h_max_terrain h_tile_width h_tile_height h_tile_half_height h_tile_half_width h_elev_height h_cur_row h_cur_col h_block_beg_row h_block_end_row h_block_beg_col h_block_end_col h_search_map_ptr h_search_map_rows_ptr h_any_frame_change h_map_visible_flag h_fog_flag
  unfold TerrainBlock.fromBytes TerrainBlock.layout
  refine Takes.bind (Takes.uint32 h_virtual_function_ptr) ?_
  refine Takes.bind (Takes.uint32 h_map_pointer) ?_
  refine Takes.bind (Takes.int32 h_map_width) ?_
  refine Takes.bind (Takes.int32 h_map_height) ?_
  refine Takes.bind (Takes.int32 h_world_width) ?_
  refine Takes.bind (Takes.int32 h_world_height) ?_
  refine Takes.bind (Takes.classArray (by rw [h_tile_sizes.1]; rfl) fun y hy => TileSize.takes (h_tile_sizes.2 y hy)) ?_
  refine Takes.bind (Takes.int16 h_padding_ts) ?_
  refine Takes.bind (Takes.classArray (by rw [h_terrains.1]; rfl) fun y hy => Terrain.takes (h_terrains.2 y hy)) ?_
  refine Takes.bind (Takes.float h_map_min_x) ?_
  refine Takes.bind (Takes.float h_map_min_y) ?_
  refine Takes.bind (Takes.float h_map_max_x) ?_
  refine Takes.bind (Takes.float h_map_max_y) ?_
  refine Takes.bind (Takes.float h_map_max_x_plus_1) ?_
  refine Takes.bind (Takes.float h_map_max_y_plus_1) ?_
  refine Takes.bind (Takes.int16 h_terrains_used_2) ?_
  refine Takes.bind (Takes.int16 h_borders_used) ?_
  refine Takes.bind (Takes.int16 h_max_terrain) ?_
  refine Takes.bind (Takes.int16 h_tile_width) ?_
  refine Takes.bind (Takes.int16 h_tile_height) ?_
  refine Takes.bind (Takes.int16 h_tile_half_height) ?_
  refine Takes.bind (Takes.int16 h_tile_half_width) ?_
  refine Takes.bind (Takes.int16 h_elev_height) ?_
  refine Takes.bind (Takes.int16 h_cur_row) ?_
  refine Takes.bind (Takes.int16 h_cur_col) ?_
  refine Takes.bind (Takes.int16 h_block_beg_row) ?_
  refine Takes.bind (Takes.int16 h_block_end_row) ?_
  refine Takes.bind (Takes.int16 h_block_beg_col) ?_
  refine Takes.bind (Takes.int16 h_block_end_col) ?_
  refine Takes.bind (Takes.uint32 h_search_map_ptr) ?_
  refine Takes.bind (Takes.uint32 h_search_map_rows_ptr) ?_
  refine Takes.bind (Takes.int8 h_any_frame_change) ?_
  refine Takes.bind (Takes.int8 h_map_visible_flag) ?_
  refine Takes.bind (Takes.int8 h_fog_flag) ?_
  exact Takes.pure rfl

theorem MapUnit.takes {v : Version} {x : MapUnit} (h : MapUnit.WF v x) :
    Takes v MapUnit.fromBytes (MapUnit.layout v x) x := by
  obtain ⟨x_unit, x_host_terrain, x_group_placing, x_scale_flag, x_padding_1, x_objects_per_group, x_fluctuation, x_groups_per_player, x_group_arena, x_player_id, x_set_place_for_all_players, x_min_distance_to_players, x_max_distance_to_players⟩ := x
  obtain ⟨h_unit, h_host_terrain, h_group_placing, h_scale_flag, h_padding_1, h_objects_per_group, h_fluctuation, h_groups_per_player, h_group_arena, h_player_id, h_set_place_for_all_players, h_min_distance_to_players, h_max_distance_to_players⟩ := h
  dsimp only at h_unit h_host_terrain h_group_placing h_scale_flag h_padding_1 h_objects_per_group h_fluctuation h_groups_per_player h_group_arena h_player_id h_set_place_for_all_players h_min_distance_to_players h_max_distance_to_players
  unfold MapUnit.fromBytes MapUnit.layout
  refine Takes.bind (Takes.int32 h_unit) ?_
  refine Takes.bind (Takes.int32 h_host_terrain) ?_
  refine Takes.bind (Takes.int8 h_group_placing) ?_
  refine Takes.bind (Takes.int8 h_scale_flag) ?_
  refine Takes.bind (Takes.int16 h_padding_1) ?_
  refine Takes.bind (Takes.int32 h_objects_per_group) ?_
  refine Takes.bind (Takes.int32 h_fluctuation) ?_
  refine Takes.bind (Takes.int32 h_groups_per_player) ?_
  refine Takes.bind (Takes.int32 h_group_arena) ?_
  refine Takes.bind (Takes.int32 h_player_id) ?_
  refine Takes.bind (Takes.int32 h_set_place_for_all_players) ?_
  refine Takes.bind (Takes.int32 h_min_distance_to_players) ?_
  refine Takes.bind (Takes.int32 h_max_distance_to_players) ?_
  exact Takes.pure rfl

theorem MapTerrain.takes {v : Version} {x : MapTerrain} (h : MapTerrain.WF v x) :
    Takes v MapTerrain.fromBytes (MapTerrain.layout v x) x := by
  obtain ⟨x_proportion, x_terrain, x_clump_count, x_edge_spacing, x_placement_terrain, x_clumpiness⟩ := x
  obtain ⟨h_proportion, h_terrain, h_clump_count, h_edge_spacing, h_placement_terrain, h_clumpiness⟩ := h
  dsimp only at h_proportion h_terrain h_clump_count h_edge_spacing h_placement_terrain h_clumpiness
  unfold MapTerrain.fromBytes MapTerrain.layout
  refine Takes.bind (Takes.int32 h_proportion) ?_
  refine Takes.bind (Takes.int32 h_terrain) ?_
  refine Takes.bind (Takes.int32 h_clump_count) ?_
  refine Takes.bind (Takes.int32 h_edge_spacing) ?_
  refine Takes.bind (Takes.int32 h_placement_terrain) ?_
  refine Takes.bind (Takes.int32 h_clumpiness) ?_
  exact Takes.pure rfl

theorem MapLand.takes {v : Version} {x : MapLand} (h : MapLand.WF v x) :
    Takes v MapLand.fromBytes (MapLand.layout v x) x := by
  obtain ⟨x_land_id, x_terrain, x_land_spacing, x_base_size, x_zone, x_placement_type, x_padding_1, x_base_x, x_base_y, x_land_proportion, x_by_player_flag, x_padding_2, x_start_area_radius, x_terrain_edge_fade, x_clumpiness⟩ := x
  obtain ⟨h_land_id, h_terrain, h_land_spacing, h_base_size, h_zone, h_placement_type, h_padding_1, h_base_x, h_base_y, h_land_proportion, h_by_player_flag, h_padding_2, h_start_area_radius, h_terrain_edge_fade, h_clumpiness⟩ := h
  dsimp only at h_land_id h_terrain h_land_spacing h_base_size h_zone h_placement_type h_padding_1 h_base_x h_base_y h_land_proportion h_by_player_flag h_padding_2 h_start_area_radius h_terrain_edge_fade h_clumpiness
  unfold MapLand.fromBytes MapLand.layout
  refine Takes.bind (Takes.int32 h_land_id) ?_
  refine Takes.bind (Takes.uint32 h_terrain) ?_
  refine Takes.bind (Takes.int32 h_land_spacing) ?_
  refine Takes.bind (Takes.int32 h_base_size) ?_
  refine Takes.bind (Takes.int8 h_zone) ?_
  refine Takes.bind (Takes.int8 h_placement_type) ?_
  refine Takes.bind (Takes.int16 h_padding_1) ?_
  refine Takes.bind (Takes.int32 h_base_x) ?_
  refine Takes.bind (Takes.int32 h_base_y) ?_
  refine Takes.bind (Takes.int8 h_land_proportion) ?_
  refine Takes.bind (Takes.int8 h_by_player_flag) ?_
  refine Takes.bind (Takes.int16 h_padding_2) ?_
  refine Takes.bind (Takes.int32 h_start_area_radius) ?_
  refine Takes.bind (Takes.int32 h_terrain_edge_fade) ?_
  refine Takes.bind (Takes.int32 h_clumpiness) ?_
  exact Takes.pure rfl

theorem MapElevation.takes {v : Version} {x : MapElevation} (h : MapElevation.WF v x) :
    Takes v MapElevation.fromBytes (MapElevation.layout v x) x := by
  obtain ⟨x_proportion, x_terrain, x_clump_count, x_base_terrain, x_base_elevation, x_tile_spacing⟩ := x
  obtain ⟨h_proportion, h_terrain, h_clump_count, h_base_terrain, h_base_elevation, h_tile_spacing⟩ := h
  dsimp only at h_proportion h_terrain h_clump_count h_base_terrain h_base_elevation h_tile_spacing
  unfold MapElevation.fromBytes MapElevation.layout
  refine Takes.bind (Takes.int32 h_proportion) ?_
  refine Takes.bind (Takes.int32 h_terrain) ?_
  refine Takes.bind (Takes.int32 h_clump_count) ?_
  refine Takes.bind (Takes.int32 h_base_terrain) ?_
  refine Takes.bind (Takes.int32 h_base_elevation) ?_
  refine Takes.bind (Takes.int32 h_tile_spacing) ?_
  exact Takes.pure rfl

theorem MapInfo.takes {v : Version} {x : MapInfo} (h : MapInfo.WF v x) :
    Takes v MapInfo.fromBytes (MapInfo.layout v x) x := by
  obtain ⟨x_map_id, x_border_south_west, x_border_north_west, x_border_north_east, x_border_south_east, x_border_usage, x_water_shape, x_base_terrain, x_land_coverage, x_unused_id, x_map_lands_size, x_map_lands_ptr, x_map_lands, x_map_terrains_size, x_map_terrains_ptr, x_map_terrains, x_map_units_size, x_map_units_ptr, x_map_units, x_map_elevations_size, x_map_elevations_ptr, x_map_elevations⟩ := x
  obtain ⟨h_map_id, h_border_south_west, h_border_north_west, h_border_north_east, h_border_south_east, h_border_usage, h_water_shape, h_base_terrain, h_land_coverage, h_unused_id, h_map_lands_size, h_map_lands_ptr, h_map_lands, h_map_terrains_size, h_map_terrains_ptr, h_map_terrains, h_map_units_size, h_map_units_ptr, h_map_units, h_map_elevations_size, h_map_elevations_ptr, h_map_elevations⟩ := h
  dsimp only at h_map_id h_border_south_west h_border_north_west h_border_north_east h_border_south_east h_border_usage h_water_shape h_base_terrain h_land_coverage h_unused_id h_map_lands_size h_map_lands_ptr h_map_lands h_map_terrains_size h_map_terrains_ptr h_map_terrains h_map_units_size h_map_units_ptr h_map_units h_map_elevations_size h_map_elevations_ptr h_map_elevations
  unfold MapInfo.fromBytes MapInfo.layout
  refine Takes.bind (Takes.int32 h_map_id) ?_
  refine Takes.bind (Takes.int32 h_border_south_west) ?_
  refine Takes.bind (Takes.int32 h_border_north_west) ?_
  refine Takes.bind (Takes.int32 h_border_north_east) ?_
  refine Takes.bind (Takes.int32 h_border_south_east) ?_
  refine Takes.bind (Takes.int32 h_border_usage) ?_
  refine Takes.bind (Takes.int32 h_water_shape) ?_
  refine Takes.bind (Takes.int32 h_base_terrain) ?_
  refine Takes.bind (Takes.int32 h_land_coverage) ?_
  refine Takes.bind (Takes.int32 h_unused_id) ?_
  subst h_map_lands_size
  refine Takes.bind (Takes.uint32 (isU32_len h_map_lands.1)) ?_
  refine Takes.bind (Takes.int32 h_map_lands_ptr) ?_
  refine Takes.bind (Takes.classArray (Int.toNat_natCast _) fun y hy => MapLand.takes (h_map_lands.2 y hy)) ?_
  subst h_map_terrains_size
  refine Takes.bind (Takes.uint32 (isU32_len h_map_terrains.1)) ?_
  refine Takes.bind (Takes.int32 h_map_terrains_ptr) ?_
  refine Takes.bind (Takes.classArray (Int.toNat_natCast _) fun y hy => MapTerrain.takes (h_map_terrains.2 y hy)) ?_
  subst h_map_units_size
  refine Takes.bind (Takes.uint32 (isU32_len h_map_units.1)) ?_
  refine Takes.bind (Takes.int32 h_map_units_ptr) ?_
  refine Takes.bind (Takes.classArray (Int.toNat_natCast _) fun y hy => MapUnit.takes (h_map_units.2 y hy)) ?_
  subst h_map_elevations_size
  refine Takes.bind (Takes.uint32 (isU32_len h_map_elevations.1)) ?_
  refine Takes.bind (Takes.int32 h_map_elevations_ptr) ?_
  refine Takes.bind (Takes.classArray (Int.toNat_natCast _) fun y hy => MapElevation.takes (h_map_elevations.2 y hy)) ?_
  exact Takes.pure rfl

theorem RandomMaps.takes {v : Version} {x : RandomMaps} (h : RandomMaps.WF v x) :
    Takes v RandomMaps.fromBytes (RandomMaps.layout v x) x := by
  obtain ⟨x_random_maps_ptr, x_map_info_1, x_map_info_2⟩ := x
  obtain ⟨h_random_maps_ptr, h_map_info_1, h_map_info_2⟩ := h
  dsimp only at h_random_maps_ptr h_map_info_1 h_map_info_2
  unfold RandomMaps.fromBytes RandomMaps.layout
  refine TakesR.requires ?_
  refine TakesR.bind (TakesR.countU32 h_map_info_1.1) fun _ _ => ?_
  refine Takes.bind (Takes.int32 h_random_maps_ptr) ?_
  refine Takes.bind (Takes.classArray (by assumption) fun y hy => MapInfo.takes (h_map_info_1.2 y hy)) ?_
  refine Takes.bind (Takes.classArray (by have := h_map_info_2.1; dsimp only at *; omega) fun y hy => MapInfo.takes (h_map_info_2.2 y hy)) ?_
  exact Takes.pure rfl

theorem ResearchResourceCost.takes {v : Version} {x : ResearchResourceCost} (h : ResearchResourceCost.WF v x) :
    Takes v ResearchResourceCost.fromBytes (ResearchResourceCost.layout v x) x := by
  obtain ⟨x_type, x_amount, x_flag⟩ := x
  obtain ⟨h_type, h_amount, h_flag⟩ := h
  dsimp only at h_type h_amount h_flag
  unfold ResearchResourceCost.fromBytes ResearchResourceCost.layout
  refine Takes.bind (Takes.int16 h_type) ?_
  refine Takes.bind (Takes.int16 h_amount) ?_
  refine Takes.bind (Takes.int8 h_flag) ?_
  exact Takes.pure rfl

theorem ResearchLocation.takes {v : Version} {x : ResearchLocation} (h : ResearchLocation.WF v x) :
    Takes v ResearchLocation.fromBytes (ResearchLocation.layout v x) x := by
  obtain ⟨x_location_id, x_research_time, x_button_id, x_hot_key_id⟩ := x
  obtain ⟨h_location_id, h_research_time, h_button_id, h_hot_key_id⟩ := h
  dsimp only at h_location_id h_research_time h_button_id h_hot_key_id
  unfold ResearchLocation.fromBytes ResearchLocation.layout
  refine Takes.bind (Takes.int16 h_location_id) ?_
  refine Takes.bind (Takes.int16 h_research_time) ?_
  refine Takes.bind (Takes.int8 h_button_id) ?_
  refine Takes.bind (Takes.int32 h_hot_key_id) ?_
  exact Takes.pure rfl

theorem Common.takes {v : Version} {x : Common} (h : Common.WF v x) :
    Takes v Common.fromBytes (Common.layout v x) x := by
  obtain ⟨x_slots_used, x_unit_research, x_mode⟩ := x
  obtain ⟨h_slots_used, h_unit_research, h_mode⟩ := h
  dsimp only at h_slots_used h_unit_research h_mode
  unfold Common.fromBytes Common.layout
  refine Takes.bind (Takes.int32 h_slots_used) ?_
  refine Takes.bind (Takes.int32Array10 h_unit_research) ?_
  refine Takes.bind (Takes.int32Array10 h_mode) ?_
  exact Takes.pure rfl

theorem TechTreeAge.takes {v : Version} {x : TechTreeAge} (h : TechTreeAge.WF v x) :
    Takes v TechTreeAge.fromBytes (TechTreeAge.layout v x) x := by
  obtain ⟨x_id, x_status, x_buildings, x_units, x_techs, x_common, x_num_building_levels, x_buildings_per_zone, x_group_length_per_zone, x_max_age_length, x_line_mode⟩ := x
  obtain ⟨h_id, h_status, h_buildings, h_units, h_techs, h_common, h_num_building_levels, h_buildings_per_zone, h_group_length_per_zone, h_max_age_length, h_line_mode⟩ := h
  dsimp only at h_id h_status h_buildings h_units h_techs h_common h_num_building_levels h_buildings_per_zone h_group_length_per_zone h_max_age_length h_line_mode
  unfold TechTreeAge.fromBytes TechTreeAge.layout
  refine Takes.bind (Takes.int32 h_id) ?_
  refine Takes.bind (Takes.int8 h_status) ?_
  refine TakesR.bind (TakesR.countU8 h_buildings.1) fun _ _ => ?_
  refine Takes.bind (Takes.int32Array (by assumption) h_buildings.2) ?_
  refine TakesR.bind (TakesR.countU8 h_units.1) fun _ _ => ?_
  refine Takes.bind (Takes.int32Array (by assumption) h_units.2) ?_
  refine TakesR.bind (TakesR.countU8 h_techs.1) fun _ _ => ?_
  refine Takes.bind (Takes.int32Array (by assumption) h_techs.2) ?_
  refine Takes.bind (Takes.class_ (Common.takes h_common)) ?_
  refine Takes.bind (Takes.int8 h_num_building_levels) ?_
  refine Takes.bind (Takes.int8Array10 h_buildings_per_zone) ?_
  refine Takes.bind (Takes.int8Array10 h_group_length_per_zone) ?_
  refine Takes.bind (Takes.int8 h_max_age_length) ?_
  refine Takes.bind (Takes.int32 h_line_mode) ?_
  exact Takes.pure rfl

theorem BuildingConnection.takes {v : Version} {x : BuildingConnection} (h : BuildingConnection.WF v x) :
    Takes v BuildingConnection.fromBytes (BuildingConnection.layout v x) x := by
  obtain ⟨x_id, x_status, x_buildings, x_units, x_techs, x_common, x_location_in_age, x_units_techs_total, x_units_techs_first, x_line_mode, x_enabling_research⟩ := x
  obtain ⟨h_id, h_status, h_buildings, h_units, h_techs, h_common, h_location_in_age, h_units_techs_total, h_units_techs_first, h_line_mode, h_enabling_research⟩ := h
  dsimp only at h_id h_status h_buildings h_units h_techs h_common h_location_in_age h_units_techs_total h_units_techs_first h_line_mode h_enabling_research
  unfold BuildingConnection.fromBytes BuildingConnection.layout
  refine Takes.bind (Takes.int32 h_id) ?_
  refine Takes.bind (Takes.int8 h_status) ?_
  refine TakesR.bind (TakesR.countU8 h_buildings.1) fun _ _ => ?_
  refine Takes.bind (Takes.int32Array (by assumption) h_buildings.2) ?_
  refine TakesR.bind (TakesR.countU8 h_units.1) fun _ _ => ?_
  refine Takes.bind (Takes.int32Array (by assumption) h_units.2) ?_
  refine TakesR.bind (TakesR.countU8 h_techs.1) fun _ _ => ?_
  refine Takes.bind (Takes.int32Array (by assumption) h_techs.2) ?_
  refine Takes.bind (Takes.class_ (Common.takes h_common)) ?_
  refine Takes.bind (Takes.int8 h_location_in_age) ?_
  refine Takes.bind (Takes.int8Array5 h_units_techs_total) ?_
  refine Takes.bind (Takes.int8Array5 h_units_techs_first) ?_
  refine Takes.bind (Takes.int32 h_line_mode) ?_
  refine Takes.bind (Takes.int32 h_enabling_research) ?_
  exact Takes.pure rfl

theorem UnitConnection.takes {v : Version} {x : UnitConnection} (h : UnitConnection.WF v x) :
    Takes v UnitConnection.fromBytes (UnitConnection.layout v x) x := by
  obtain ⟨x_id, x_status, x_upper_building, x_common, x_vertical_line, x_units, x_location_in_age, x_required_research, x_line_mode, x_enabling_research⟩ := x
  obtain ⟨h_id, h_status, h_upper_building, h_common, h_vertical_line, h_units, h_location_in_age, h_required_research, h_line_mode, h_enabling_research⟩ := h
  dsimp only at h_id h_status h_upper_building h_common h_vertical_line h_units h_location_in_age h_required_research h_line_mode h_enabling_research
  unfold UnitConnection.fromBytes UnitConnection.layout
  refine Takes.bind (Takes.int32 h_id) ?_
  refine Takes.bind (Takes.int8 h_status) ?_
  refine Takes.bind (Takes.int32 h_upper_building) ?_
  refine Takes.bind (Takes.class_ (Common.takes h_common)) ?_
  refine Takes.bind (Takes.int32 h_vertical_line) ?_
  refine TakesR.bind (TakesR.countU8 h_units.1) fun _ _ => ?_
  refine Takes.bind (Takes.int32Array (by assumption) h_units.2) ?_
  refine Takes.bind (Takes.int32 h_location_in_age) ?_
  refine Takes.bind (Takes.int32 h_required_research) ?_
  refine Takes.bind (Takes.int32 h_line_mode) ?_
  refine Takes.bind (Takes.int32 h_enabling_research) ?_
  exact Takes.pure rfl

theorem ResearchConnection.takes {v : Version} {x : ResearchConnection} (h : ResearchConnection.WF v x) :
    Takes v ResearchConnection.fromBytes (ResearchConnection.layout v x) x := by
  obtain ⟨x_id, x_status, x_upper_building, x_buildings, x_units, x_techs, x_common, x_vertical_line, x_location_in_age, x_line_mode⟩ := x
  obtain ⟨h_id, h_status, h_upper_building, h_buildings, h_units, h_techs, h_common, h_vertical_line, h_location_in_age, h_line_mode⟩ := h
  dsimp only at h_id h_status h_upper_building h_buildings h_units h_techs h_common h_vertical_line h_location_in_age h_line_mode
  unfold ResearchConnection.fromBytes ResearchConnection.layout
  refine Takes.bind (Takes.int32 h_id) ?_
  refine Takes.bind (Takes.int8 h_status) ?_
  refine Takes.bind (Takes.int32 h_upper_building) ?_
  refine TakesR.bind (TakesR.countU8 h_buildings.1) fun _ _ => ?_
  refine Takes.bind (Takes.int32Array (by assumption) h_buildings.2) ?_
  refine TakesR.bind (TakesR.countU8 h_units.1) fun _ _ => ?_
  refine Takes.bind (Takes.int32Array (by assumption) h_units.2) ?_
  refine TakesR.bind (TakesR.countU8 h_techs.1) fun _ _ => ?_
  refine Takes.bind (Takes.int32Array (by assumption) h_techs.2) ?_
  refine Takes.bind (Takes.class_ (Common.takes h_common)) ?_
  refine Takes.bind (Takes.int32 h_vertical_line) ?_
  refine Takes.bind (Takes.int32 h_location_in_age) ?_
  refine Takes.bind (Takes.int32 h_line_mode) ?_
  exact Takes.pure rfl

theorem TechTree.takes {v : Version} {x : TechTree} (h : TechTree.WF v x) :
    Takes v TechTree.fromBytes (TechTree.layout v x) x := by
  obtain ⟨x_total_unit_tech_groups, x_tech_tree_ages, x_building_connections, x_unit_connections, x_research_connections⟩ := x
  obtain ⟨h_total_unit_tech_groups, h_tech_tree_ages, h_building_connections, h_unit_connections, h_research_connections⟩ := h
  dsimp only at h_total_unit_tech_groups h_tech_tree_ages h_building_connections h_unit_connections h_research_connections
  unfold TechTree.fromBytes TechTree.layout
  refine TakesR.bind (TakesR.countU8 h_tech_tree_ages.1) fun _ _ => ?_
  refine TakesR.bind (TakesR.countU8 h_building_connections.1) fun _ _ => ?_
  refine TakesR.bind (TakesR.countU8 h_unit_connections.1) fun _ _ => ?_
  refine TakesR.bind (TakesR.countU8 h_research_connections.1) fun _ _ => ?_
  refine Takes.bind (Takes.int32 h_total_unit_tech_groups) ?_
  refine Takes.bind (Takes.classArray (by assumption) fun y hy => TechTreeAge.takes (h_tech_tree_ages.2 y hy)) ?_
  refine Takes.bind (Takes.classArray (by assumption) fun y hy => BuildingConnection.takes (h_building_connections.2 y hy)) ?_
  refine Takes.bind (Takes.classArray (by assumption) fun y hy => UnitConnection.takes (h_unit_connections.2 y hy)) ?_
  refine Takes.bind (Takes.classArray (by assumption) fun y hy => ResearchConnection.takes (h_research_connections.2 y hy)) ?_
  exact Takes.pure rfl

end Genie
