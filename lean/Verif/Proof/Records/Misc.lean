import Verif.Proof.Containers
import Verif.Spec.Records
/-! # Write-read and read-write lemmas of the plain records (Misc); generated by `tools/gen_records.py` -/

namespace Genie

theorem EffectCommand.rw {v : Version} {x : EffectCommand} (h : EffectCommand.WF v x) :
    RW v EffectCommand.fromBytes (EffectCommand.toBytes v x) x := by
  obtain ⟨x_type, x_a, x_b, x_c, x_d⟩ := x
  obtain ⟨h_type, h_a, h_b, h_c, h_d⟩ := h
  dsimp only at h_type h_a h_b h_c h_d
  unfold EffectCommand.fromBytes EffectCommand.toBytes
  refine RW.bind (RW.int8 h_type) ?_
  refine RW.bind (RW.int16 h_a) ?_
  refine RW.bind (RW.int16 h_b) ?_
  refine RW.bind (RW.int16 h_c) ?_
  refine RW.bind (RW.float h_d) ?_
  exact RW.pure rfl

theorem EffectCommand.good (v : Version) :
    Good v EffectCommand.fromBytes (EffectCommand.WF v) (fun x bs => EffectCommand.toBytes v x = .ok bs) := by
  unfold EffectCommand.fromBytes
  refine Good.bind Good.int8 fun type h_type => ?_
  refine Good.bind Good.int16 fun a h_a => ?_
  refine Good.bind Good.int16 fun b h_b => ?_
  refine Good.bind Good.int16 fun c h_c => ?_
  refine Good.bind Good.float fun d h_d => ?_
  refine Good.pure ⟨h_type, h_a, h_b, h_c, h_d⟩ ?_
  rintro b4 k4 b3 k3 b2 k2 b1 k1 b0 k0
  unfold EffectCommand.toBytes
  exact joinB_cons_ok k0 (joinB_cons_ok k1 (joinB_cons_ok k2 (joinB_cons_ok k3 (joinB_cons_ok k4 rfl))))

theorem Effect.rw {v : Version} {x : Effect} (h : Effect.WF v x) :
    RW v Effect.fromBytes (Effect.toBytes v x) x := by
  obtain ⟨x_name, x_effect_commands⟩ := x
  obtain ⟨h_name, h_effect_commands⟩ := h
  dsimp only at h_name h_effect_commands
  unfold Effect.fromBytes Effect.toBytes
  refine RW.bind (RW.debugString h_name) ?_
  refine RW.bind (RW.int16 (isI16_len h_effect_commands.1)) ?_
  refine RW.bind (RW.classArray rfl fun y hy => EffectCommand.rw (h_effect_commands.2 y hy)) ?_
  exact RW.pure rfl

theorem Effect.good (v : Version) :
    Good v Effect.fromBytes (Effect.WF v) (fun x bs => Effect.toBytes v x = .ok bs) := by
  unfold Effect.fromBytes
  refine Good.bind Good.debugString fun name h_name => ?_
  refine Good.bind Good.int16 fun effect_command_count h_effect_command_count => ?_
  refine Good.bind (Good.classArray _ (EffectCommand.good v)) fun effect_commands h_effect_commands => ?_
  refine Good.pure ⟨h_name, upTo_i16 h_effect_command_count h_effect_commands⟩ ?_
  rintro b2 ⟨rfl, k2⟩ b1 k1 b0 k0
  unfold Effect.toBytes
  exact joinB_cons_ok k0 (joinB_cons_ok k1 (joinB_cons_ok k2 rfl))

theorem SoundItem.rw {v : Version} {x : SoundItem} (h : SoundItem.WF v x) :
    RW v SoundItem.fromBytes (SoundItem.toBytes v x) x := by
  obtain ⟨x_filename, x_resource_id, x_probability, x_civilization, x_icon_set⟩ := x
  obtain ⟨h_filename, h_resource_id, h_probability, h_civilization, h_icon_set⟩ := h
  dsimp only at h_filename h_resource_id h_probability h_civilization h_icon_set
  unfold SoundItem.fromBytes SoundItem.toBytes
  refine RW.bind (RW.debugString h_filename) ?_
  refine RW.bind (RW.int32 h_resource_id) ?_
  refine RW.bind (RW.int16 h_probability) ?_
  refine RW.bind (RW.int16 h_civilization) ?_
  refine RW.bind (RW.int16 h_icon_set) ?_
  exact RW.pure rfl

theorem SoundItem.good (v : Version) :
    Good v SoundItem.fromBytes (SoundItem.WF v) (fun x bs => SoundItem.toBytes v x = .ok bs) := by
  unfold SoundItem.fromBytes
  refine Good.bind Good.debugString fun filename h_filename => ?_
  refine Good.bind Good.int32 fun resource_id h_resource_id => ?_
  refine Good.bind Good.int16 fun probability h_probability => ?_
  refine Good.bind Good.int16 fun civilization h_civilization => ?_
  refine Good.bind Good.int16 fun icon_set h_icon_set => ?_
  refine Good.pure ⟨h_filename, h_resource_id, h_probability, h_civilization, h_icon_set⟩ ?_
  rintro b4 k4 b3 k3 b2 k2 b1 k1 b0 k0
  unfold SoundItem.toBytes
  exact joinB_cons_ok k0 (joinB_cons_ok k1 (joinB_cons_ok k2 (joinB_cons_ok k3 (joinB_cons_ok k4 rfl))))

theorem Sound.rw {v : Version} {x : Sound} (h : Sound.WF v x) :
    RW v Sound.fromBytes (Sound.toBytes v x) x := by
  obtain ⟨x_id, x_play_delay, x_cache_time, x_total_probability, x_items⟩ := x
  obtain ⟨h_id, h_play_delay, h_cache_time, h_total_probability, h_items⟩ := h
  dsimp only at h_id h_play_delay h_cache_time h_total_probability h_items
  unfold Sound.fromBytes Sound.toBytes
  refine RW.bind (RW.int16 h_id) ?_
  refine RW.bind (RW.int16 h_play_delay) ?_
  refine RW.bind (RW.int16 (isI16_len h_items.1)) ?_
  refine RW.bind (RW.int32 h_cache_time) ?_
  refine RW.bind (RW.int16 h_total_probability) ?_
  refine RW.bind (RW.classArray rfl fun y hy => SoundItem.rw (h_items.2 y hy)) ?_
  exact RW.pure rfl

theorem Sound.good (v : Version) :
    Good v Sound.fromBytes (Sound.WF v) (fun x bs => Sound.toBytes v x = .ok bs) := by
  unfold Sound.fromBytes
  refine Good.bind Good.int16 fun id_ h_id_ => ?_
  refine Good.bind Good.int16 fun play_delay h_play_delay => ?_
  refine Good.bind Good.int16 fun items_size h_items_size => ?_
  refine Good.bind Good.int32 fun cache_time h_cache_time => ?_
  refine Good.bind Good.int16 fun total_probability h_total_probability => ?_
  refine Good.bind (Good.classArray _ (SoundItem.good v)) fun items h_items => ?_
  refine Good.pure ⟨h_id_, h_play_delay, h_cache_time, h_total_probability, upTo_i16 h_items_size h_items⟩ ?_
  rintro b5 ⟨rfl, k5⟩ b4 k4 b3 k3 b2 k2 b1 k1 b0 k0
  unfold Sound.toBytes
  exact joinB_cons_ok k0 (joinB_cons_ok k1 (joinB_cons_ok k2 (joinB_cons_ok k3 (joinB_cons_ok k4 (joinB_cons_ok k5 rfl)))))

theorem PlayerColour.rw {v : Version} {x : PlayerColour} (h : PlayerColour.WF v x) :
    RW v PlayerColour.fromBytes (PlayerColour.toBytes v x) x := by
  obtain ⟨x_id, x_player_color_base, x_unit_outline_color, x_unit_selection_color_1, x_unit_selection_color_2, x_minimap_color, x_minimap_color_2, x_minimap_color_3, x_statistics_text⟩ := x
  obtain ⟨h_id, h_player_color_base, h_unit_outline_color, h_unit_selection_color_1, h_unit_selection_color_2, h_minimap_color, h_minimap_color_2, h_minimap_color_3, h_statistics_text⟩ := h
  dsimp only at h_id h_player_color_base h_unit_outline_color h_unit_selection_color_1 h_unit_selection_color_2 h_minimap_color h_minimap_color_2 h_minimap_color_3 h_statistics_text
  unfold PlayerColour.fromBytes PlayerColour.toBytes
  refine RW.bind (RW.int32 h_id) ?_
  refine RW.bind (RW.int32 h_player_color_base) ?_
  refine RW.bind (RW.int32 h_unit_outline_color) ?_
  refine RW.bind (RW.int32 h_unit_selection_color_1) ?_
  refine RW.bind (RW.int32 h_unit_selection_color_2) ?_
  refine RW.bind (RW.int32 h_minimap_color) ?_
  refine RW.bind (RW.int32 h_minimap_color_2) ?_
  refine RW.bind (RW.int32 h_minimap_color_3) ?_
  refine RW.bind (RW.int32 h_statistics_text) ?_
  exact RW.pure rfl

theorem PlayerColour.good (v : Version) :
    Good v PlayerColour.fromBytes (PlayerColour.WF v) (fun x bs => PlayerColour.toBytes v x = .ok bs) := by
  unfold PlayerColour.fromBytes
  refine Good.bind Good.int32 fun id h_id => ?_
  refine Good.bind Good.int32 fun player_color_base h_player_color_base => ?_
  refine Good.bind Good.int32 fun unit_outline_color h_unit_outline_color => ?_
  refine Good.bind Good.int32 fun unit_selection_color_1 h_unit_selection_color_1 => ?_
  refine Good.bind Good.int32 fun unit_selection_color_2 h_unit_selection_color_2 => ?_
  refine Good.bind Good.int32 fun minimap_color h_minimap_color => ?_
  refine Good.bind Good.int32 fun minimap_color_2 h_minimap_color_2 => ?_
  refine Good.bind Good.int32 fun minimap_color_3 h_minimap_color_3 => ?_
  refine Good.bind Good.int32 fun statistics_text h_statistics_text => ?_
  refine Good.pure ⟨h_id, h_player_color_base, h_unit_outline_color, h_unit_selection_color_1, h_unit_selection_color_2, h_minimap_color, h_minimap_color_2, h_minimap_color_3, h_statistics_text⟩ ?_
  rintro b8 k8 b7 k7 b6 k6 b5 k5 b4 k4 b3 k3 b2 k2 b1 k1 b0 k0
  unfold PlayerColour.toBytes
  exact joinB_cons_ok k0 (joinB_cons_ok k1 (joinB_cons_ok k2 (joinB_cons_ok k3 (joinB_cons_ok k4 (joinB_cons_ok k5 (joinB_cons_ok k6 (joinB_cons_ok k7 (joinB_cons_ok k8 rfl))))))))

theorem GraphicDelta.rw {v : Version} {x : GraphicDelta} (h : GraphicDelta.WF v x) :
    RW v GraphicDelta.fromBytes (GraphicDelta.toBytes v x) x := by
  obtain ⟨x_graphic_id, x_padding_1, x_sprite_ptr, x_offset_x, x_offset_y, x_display_angle, x_padding_2⟩ := x
  obtain ⟨h_graphic_id, h_padding_1, h_sprite_ptr, h_offset_x, h_offset_y, h_display_angle, h_padding_2⟩ := h
  dsimp only at h_graphic_id h_padding_1 h_sprite_ptr h_offset_x h_offset_y h_display_angle h_padding_2
  unfold GraphicDelta.fromBytes GraphicDelta.toBytes
  refine RW.bind (RW.int16 h_graphic_id) ?_
  refine RW.bind (RW.int16 h_padding_1) ?_
  refine RW.bind (RW.int32 h_sprite_ptr) ?_
  refine RW.bind (RW.int16 h_offset_x) ?_
  refine RW.bind (RW.int16 h_offset_y) ?_
  refine RW.bind (RW.int16 h_display_angle) ?_
  refine RW.bind (RW.int16 h_padding_2) ?_
  exact RW.pure rfl

theorem GraphicDelta.good (v : Version) :
    Good v GraphicDelta.fromBytes (GraphicDelta.WF v) (fun x bs => GraphicDelta.toBytes v x = .ok bs) := by
  unfold GraphicDelta.fromBytes
  refine Good.bind Good.int16 fun graphic_id h_graphic_id => ?_
  refine Good.bind Good.int16 fun padding_1 h_padding_1 => ?_
  refine Good.bind Good.int32 fun sprite_ptr h_sprite_ptr => ?_
  refine Good.bind Good.int16 fun offset_x h_offset_x => ?_
  refine Good.bind Good.int16 fun offset_y h_offset_y => ?_
  refine Good.bind Good.int16 fun display_angle h_display_angle => ?_
  refine Good.bind Good.int16 fun padding_2 h_padding_2 => ?_
  refine Good.pure ⟨h_graphic_id, h_padding_1, h_sprite_ptr, h_offset_x, h_offset_y, h_display_angle, h_padding_2⟩ ?_
  rintro b6 k6 b5 k5 b4 k4 b3 k3 b2 k2 b1 k1 b0 k0
  unfold GraphicDelta.toBytes
  exact joinB_cons_ok k0 (joinB_cons_ok k1 (joinB_cons_ok k2 (joinB_cons_ok k3 (joinB_cons_ok k4 (joinB_cons_ok k5 (joinB_cons_ok k6 rfl))))))

theorem GraphicAngleSound.rw {v : Version} {x : GraphicAngleSound} (h : GraphicAngleSound.WF v x) :
    RW v GraphicAngleSound.fromBytes (GraphicAngleSound.toBytes v x) x := by
  obtain ⟨x_frame_num, x_sound_id, x_wwise_sound_id, x_frame_num_2, x_sound_id_2, x_wwise_sound_id_2, x_frame_num_3, x_sound_id_3, x_wwise_sound_id_3⟩ := x
  obtain ⟨h_frame_num, h_sound_id, h_wwise_sound_id, h_frame_num_2, h_sound_id_2, h_wwise_sound_id_2, h_frame_num_3, h_sound_id_3, h_wwise_sound_id_3⟩ := h
  dsimp only at h_frame_num h_sound_id h_wwise_sound_id h_frame_num_2 h_sound_id_2 h_wwise_sound_id_2 h_frame_num_3 h_sound_id_3 h_wwise_sound_id_3
  unfold GraphicAngleSound.fromBytes GraphicAngleSound.toBytes
  refine RW.bind (RW.int16 h_frame_num) ?_
  refine RW.bind (RW.int16 h_sound_id) ?_
  refine RW.bind (RW.int32 h_wwise_sound_id) ?_
  refine RW.bind (RW.int16 h_frame_num_2) ?_
  refine RW.bind (RW.int16 h_sound_id_2) ?_
  refine RW.bind (RW.int32 h_wwise_sound_id_2) ?_
  refine RW.bind (RW.int16 h_frame_num_3) ?_
  refine RW.bind (RW.int16 h_sound_id_3) ?_
  refine RW.bind (RW.int32 h_wwise_sound_id_3) ?_
  exact RW.pure rfl

theorem GraphicAngleSound.good (v : Version) :
    Good v GraphicAngleSound.fromBytes (GraphicAngleSound.WF v) (fun x bs => GraphicAngleSound.toBytes v x = .ok bs) := by
  unfold GraphicAngleSound.fromBytes
  refine Good.bind Good.int16 fun frame_num h_frame_num => ?_
  refine Good.bind Good.int16 fun sound_id h_sound_id => ?_
  refine Good.bind Good.int32 fun wwise_sound_id h_wwise_sound_id => ?_
  refine Good.bind Good.int16 fun frame_num_2 h_frame_num_2 => ?_
  refine Good.bind Good.int16 fun sound_id_2 h_sound_id_2 => ?_
  refine Good.bind Good.int32 fun wwise_sound_id_2 h_wwise_sound_id_2 => ?_
  refine Good.bind Good.int16 fun frame_num_3 h_frame_num_3 => ?_
  refine Good.bind Good.int16 fun sound_id_3 h_sound_id_3 => ?_
  refine Good.bind Good.int32 fun wwise_sound_id_3 h_wwise_sound_id_3 => ?_
  refine Good.pure ⟨h_frame_num, h_sound_id, h_wwise_sound_id, h_frame_num_2, h_sound_id_2, h_wwise_sound_id_2, h_frame_num_3, h_sound_id_3, h_wwise_sound_id_3⟩ ?_
  rintro b8 k8 b7 k7 b6 k6 b5 k5 b4 k4 b3 k3 b2 k2 b1 k1 b0 k0
  unfold GraphicAngleSound.toBytes
  exact joinB_cons_ok k0 (joinB_cons_ok k1 (joinB_cons_ok k2 (joinB_cons_ok k3 (joinB_cons_ok k4 (joinB_cons_ok k5 (joinB_cons_ok k6 (joinB_cons_ok k7 (joinB_cons_ok k8 rfl))))))))

theorem TerrainPassGraphic.rw {v : Version} {x : TerrainPassGraphic} (h : TerrainPassGraphic.WF v x) :
    RW v TerrainPassGraphic.fromBytes (TerrainPassGraphic.toBytes v x) x := by
  obtain ⟨x_exit_tile_sprite_id, x_enter_tile_sprite_id, x_walk_tile_sprite_id, x_walk_sprite_rate⟩ := x
  obtain ⟨h_exit_tile_sprite_id, h_enter_tile_sprite_id, h_walk_tile_sprite_id, h_walk_sprite_rate⟩ := h
  dsimp only at h_exit_tile_sprite_id h_enter_tile_sprite_id h_walk_tile_sprite_id h_walk_sprite_rate
  unfold TerrainPassGraphic.fromBytes TerrainPassGraphic.toBytes
  refine RW.bind (RW.int32 h_exit_tile_sprite_id) ?_
  refine RW.bind (RW.int32 h_enter_tile_sprite_id) ?_
  refine RW.bind (RW.int32 h_walk_tile_sprite_id) ?_
  refine RW.bind (RW.int32 h_walk_sprite_rate) ?_
  exact RW.pure rfl

theorem TerrainPassGraphic.good (v : Version) :
    Good v TerrainPassGraphic.fromBytes (TerrainPassGraphic.WF v) (fun x bs => TerrainPassGraphic.toBytes v x = .ok bs) := by
  unfold TerrainPassGraphic.fromBytes
  refine Good.bind Good.int32 fun exit_tile_sprite_id h_exit_tile_sprite_id => ?_
  refine Good.bind Good.int32 fun enter_tile_sprite_id h_enter_tile_sprite_id => ?_
  refine Good.bind Good.int32 fun walk_tile_sprite_id h_walk_tile_sprite_id => ?_
  refine Good.bind Good.int32 fun walk_sprite_rate h_walk_sprite_rate => ?_
  refine Good.pure ⟨h_exit_tile_sprite_id, h_enter_tile_sprite_id, h_walk_tile_sprite_id, h_walk_sprite_rate⟩ ?_
  rintro b3 k3 b2 k2 b1 k1 b0 k0
  unfold TerrainPassGraphic.toBytes
  exact joinB_cons_ok k0 (joinB_cons_ok k1 (joinB_cons_ok k2 (joinB_cons_ok k3 rfl)))

end Genie
