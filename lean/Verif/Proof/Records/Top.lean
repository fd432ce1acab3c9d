import Verif.Proof.Records.Misc
import Verif.Proof.Records.TechTree
import Verif.Proof.Records.Unit
import Verif.Spec.Versioned
/-! # Write-read and read-write lemmas: `Graphic`, `Tech`, `Civ`, `TerrainRestriction` -/

namespace Genie

theorem RW.angleSounds {v : Version} {used cnt : Int} {l : List GraphicAngleSound}
    (h : AllOf (GraphicAngleSound.WF v) l) (hl : l.length = if used = 0 then 0 else cnt.toNat) :
    RW v (readOr (used ≠ 0) (readClassArray GraphicAngleSound.fromBytes cnt (countStored := true)) [])
      (writeClassArray GraphicAngleSound.toBytes l v) l := by
  unfold readOr
  by_cases hu : used = 0
  · rw [if_pos hu] at hl
    rw [if_neg (by simpa using hu)]
    obtain rfl := List.length_eq_zero_iff.1 hl
    exact RW.pure rfl
  · rw [if_neg hu] at hl
    rw [if_pos hu]
    exact RW.arrayStored hl.symm fun y hy => GraphicAngleSound.rw (h y hy)

theorem Good.angleSounds {v : Version} {used cnt : Int} :
    Good v (readOr (used ≠ 0) (readClassArray GraphicAngleSound.fromBytes cnt (countStored := true)) [])
      (fun l => AllOf (GraphicAngleSound.WF v) l ∧ l.length = if used = 0 then 0 else cnt.toNat)
      (fun l bs => writeClassArray GraphicAngleSound.toBytes l v = .ok bs) := by
  unfold readOr
  by_cases hu : used = 0
  · rw [if_neg (by simpa using hu)]
    exact Good.pure ⟨by simp [AllOf], by simp [hu]⟩ rfl
  · rw [if_pos hu]
    refine Good.mono (Good.arrayStored cnt (GraphicAngleSound.good v)) ?_ (fun _ _ _ h => h)
    intro l hl
    exact ⟨hl.2, by rw [if_neg hu]; exact hl.1⟩

theorem Graphic.rw {v : Version} {x : Graphic} (h : Graphic.WF v x) :
    RW v Graphic.fromBytes (Graphic.toBytes v x) x := by
  obtain ⟨x_name, x_file_name, x_particle_effect_name, x_slp, x_is_loaded, x_old_color_flag, x_layer, x_player_color, x_transparent_selection, x_coordinates, x_sound_id, x_wwise_sound_id, x_angle_sounds_used, x_frame_count, x_angle_count, x_speed_multiplier, x_frame_duration, x_replay_delay, x_sequence_type, x_id, x_mirroring_mode, x_editor_flag, x_deltas, x_angle_sounds⟩ := x
  obtain ⟨h_name, h_file_name, h_particle_effect_name, h_slp, h_is_loaded, h_old_color_flag, h_layer, h_player_color, h_transparent_selection, h_coordinates, h_sound_id, h_wwise_sound_id, h_angle_sounds_used, h_frame_count, h_angle_count, h_speed_multiplier, h_frame_duration, h_replay_delay, h_sequence_type, h_id, h_mirroring_mode, h_editor_flag, h_deltas, h_angle_sounds⟩ := h
  dsimp only at h_name h_file_name h_particle_effect_name h_slp h_is_loaded h_old_color_flag h_layer h_player_color h_transparent_selection h_coordinates h_sound_id h_wwise_sound_id h_angle_sounds_used h_frame_count h_angle_count h_speed_multiplier h_frame_duration h_replay_delay h_sequence_type h_id h_mirroring_mode h_editor_flag h_deltas h_angle_sounds
  unfold Graphic.fromBytes Graphic.toBytes
  refine RW.bind (RW.debugString h_name) ?_
  refine RW.bind (RW.debugString h_file_name) ?_
  refine RW.bind (RW.debugString h_particle_effect_name) ?_
  refine RW.bind (RW.int32 h_slp) ?_
  refine RW.bind (RW.int8 h_is_loaded) ?_
  refine RW.bind (RW.int8 h_old_color_flag) ?_
  refine RW.bind (RW.int8 h_layer) ?_
  refine RW.bind (RW.int16 h_player_color) ?_
  refine RW.bind (RW.int8 h_transparent_selection) ?_
  refine RW.bind (RW.int16Array4 h_coordinates) ?_
  refine RW.bind (RW.int16 (isI16_len h_deltas.1)) ?_
  refine RW.bind (RW.int16 h_sound_id) ?_
  refine RW.bind (RW.int32 h_wwise_sound_id) ?_
  refine RW.bind (RW.int8 h_angle_sounds_used) ?_
  refine RW.bind (RW.int16 h_frame_count) ?_
  refine RW.bind (RW.int16 h_angle_count) ?_
  refine RW.bind (RW.float h_speed_multiplier) ?_
  refine RW.bind (RW.float h_frame_duration) ?_
  refine RW.bind (RW.float h_replay_delay) ?_
  refine RW.bind (RW.int8 h_sequence_type) ?_
  refine RW.bind (RW.int16 h_id) ?_
  refine RW.bind (RW.int8 h_mirroring_mode) ?_
  refine RW.bind (RW.int8 h_editor_flag) ?_
  refine RW.bind (RW.classArray rfl fun y hy => GraphicDelta.rw (h_deltas.2 y hy)) ?_
  refine RW.bind (RW.angleSounds h_angle_sounds.1 h_angle_sounds.2) ?_
  exact RW.pure rfl

theorem Graphic.good (v : Version) :
    Good v Graphic.fromBytes (Graphic.WF v) (fun x bs => Graphic.toBytes v x = .ok bs) := by
  unfold Graphic.fromBytes
  refine Good.bind (Good.debugString) fun name h_name => ?_
  refine Good.bind (Good.debugString) fun file_name h_file_name => ?_
  refine Good.bind (Good.debugString) fun particle_effect_name h_particle_effect_name => ?_
  refine Good.bind (Good.int32) fun slp h_slp => ?_
  refine Good.bind (Good.int8) fun is_loaded h_is_loaded => ?_
  refine Good.bind (Good.int8) fun old_color_flag h_old_color_flag => ?_
  refine Good.bind (Good.int8) fun layer h_layer => ?_
  refine Good.bind (Good.int16) fun player_color h_player_color => ?_
  refine Good.bind (Good.int8) fun transparent_selection h_transparent_selection => ?_
  refine Good.bind (Good.int16Array4) fun coordinates h_coordinates => ?_
  refine Good.bind (Good.int16) fun delta_count h_delta_count => ?_
  refine Good.bind (Good.int16) fun sound_id h_sound_id => ?_
  refine Good.bind (Good.int32) fun wwise_sound_id h_wwise_sound_id => ?_
  refine Good.bind (Good.int8) fun angle_sounds_used h_angle_sounds_used => ?_
  refine Good.bind (Good.int16) fun frame_count h_frame_count => ?_
  refine Good.bind (Good.int16) fun angle_count h_angle_count => ?_
  refine Good.bind (Good.float) fun speed_multiplier h_speed_multiplier => ?_
  refine Good.bind (Good.float) fun frame_duration h_frame_duration => ?_
  refine Good.bind (Good.float) fun replay_delay h_replay_delay => ?_
  refine Good.bind (Good.int8) fun sequence_type h_sequence_type => ?_
  refine Good.bind (Good.int16) fun id_ h_id_ => ?_
  refine Good.bind (Good.int8) fun mirroring_mode h_mirroring_mode => ?_
  refine Good.bind (Good.int8) fun editor_flag h_editor_flag => ?_
  refine Good.bind (Good.classArray _ (GraphicDelta.good v)) fun deltas h_deltas => ?_
  refine Good.bind (Good.angleSounds) fun angle_sounds h_angle_sounds => ?_
  refine Good.pure ⟨h_name, h_file_name, h_particle_effect_name, h_slp, h_is_loaded, h_old_color_flag, h_layer, h_player_color, h_transparent_selection, h_coordinates, h_sound_id, h_wwise_sound_id, h_angle_sounds_used, h_frame_count, h_angle_count, h_speed_multiplier, h_frame_duration, h_replay_delay, h_sequence_type, h_id_, h_mirroring_mode, h_editor_flag, upTo_i16 h_delta_count h_deltas, h_angle_sounds⟩ ?_
  rintro b24 k24 b23 ⟨rfl, k23⟩ b22 k22 b21 k21 b20 k20 b19 k19 b18 k18 b17 k17 b16 k16 b15 k15 b14 k14 b13 k13 b12 k12 b11 k11 b10 k10 b9 k9 b8 k8 b7 k7 b6 k6 b5 k5 b4 k4 b3 k3 b2 k2 b1 k1 b0 k0
  exact joinB_cons_ok k0 (joinB_cons_ok k1 (joinB_cons_ok k2 (joinB_cons_ok k3 (joinB_cons_ok k4 (joinB_cons_ok k5 (joinB_cons_ok k6 (joinB_cons_ok k7 (joinB_cons_ok k8 (joinB_cons_ok k9 (joinB_cons_ok k10 (joinB_cons_ok k11 (joinB_cons_ok k12 (joinB_cons_ok k13 (joinB_cons_ok k14 (joinB_cons_ok k15 (joinB_cons_ok k16 (joinB_cons_ok k17 (joinB_cons_ok k18 (joinB_cons_ok k19 (joinB_cons_ok k20 (joinB_cons_ok k21 (joinB_cons_ok k22 (joinB_cons_ok k23 (joinB_cons_ok k24 rfl))))))))))))))))))))))))

theorem Tech.rw {v : Version} {x : Tech} (h : Tech.WF v x) :
    RW v Tech.fromBytes (Tech.toBytes v x) x := by
  obtain ⟨x_required_techs, x_resource_costs, x_required_tech_count, x_civ, x_full_tech_mode, x_language_dll_name, x_language_dll_description, x_effect_id, x_type, x_icon_id, x_language_dll_help, x_language_dll_tech_tree, x_name, x_repeatable, x_research_locations⟩ := x
  obtain ⟨h_required_techs, h_resource_costs, h_required_tech_count, h_civ, h_full_tech_mode, h_language_dll_name, h_language_dll_description, h_effect_id, h_type, h_icon_id, h_language_dll_help, h_language_dll_tech_tree, h_name, h_repeatable, h_research_locations⟩ := h
  dsimp only at h_required_techs h_resource_costs h_required_tech_count h_civ h_full_tech_mode h_language_dll_name h_language_dll_description h_effect_id h_type h_icon_id h_language_dll_help h_language_dll_tech_tree h_name h_repeatable h_research_locations
  unfold Tech.fromBytes Tech.toBytes
  refine RW.getVersion ?_
  by_cases hv : 88 ≤ v.num
  · have hg : v.ge .VER_88 = true := (ge_iff _ _).2 hv
    rw [if_pos hg, if_pos hg]
    replace h_research_locations := h_research_locations.pos hv
    unfold Tech.fromBytes88 Tech.toBytes88
    refine RW.bind (RW.int16Array6 h_required_techs) ?_
    refine RW.bind (RW.classArray3 h_resource_costs.1 fun y hy => ResearchResourceCost.rw (h_resource_costs.2 y hy)) ?_
    refine RW.bind (RW.int16 h_required_tech_count) ?_
    refine RW.bind (RW.int16 h_civ) ?_
    refine RW.bind (RW.int16 h_full_tech_mode) ?_
    refine RW.bind (RW.int32 h_language_dll_name) ?_
    refine RW.bind (RW.int32 h_language_dll_description) ?_
    refine RW.bind (RW.int16 h_effect_id) ?_
    refine RW.bind (RW.int16 h_type) ?_
    refine RW.bind (RW.int16 h_icon_id) ?_
    refine RW.bind (RW.int32 h_language_dll_help) ?_
    refine RW.bind (RW.int32 h_language_dll_tech_tree) ?_
    refine RW.bind (RW.debugString h_name) ?_
    refine RW.bind (RW.int8 h_repeatable) ?_
    refine RW.bind (RW.int16 (isI16_len h_research_locations.1)) ?_
    refine RW.bind (RW.classArray rfl fun y hy => ResearchLocation.rw (h_research_locations.2 y hy)) ?_
    exact RW.pure rfl
  · have hg := not_ge (w := .VER_88) hv
    rw [if_neg hg, if_neg hg]
    replace h_research_locations := h_research_locations.neg hv
    obtain ⟨hl, hr⟩ := h_research_locations
    obtain ⟨r, rfl⟩ := length_eq_1 hl
    obtain ⟨hr_location_id, hr_research_time, hr_button_id, hr_hot_key_id⟩ := hr r (by simp)
    unfold Tech.fromBytes84 Tech.toBytes84
    dsimp only
    refine RW.bind (RW.int16Array6 h_required_techs) ?_
    refine RW.bind (RW.classArray3 h_resource_costs.1 fun y hy => ResearchResourceCost.rw (h_resource_costs.2 y hy)) ?_
    refine RW.bind (RW.int16 h_required_tech_count) ?_
    refine RW.bind (RW.int16 h_civ) ?_
    refine RW.bind (RW.int16 h_full_tech_mode) ?_
    refine RW.bind (RW.int16 hr_location_id) ?_
    refine RW.bind (RW.int32 h_language_dll_name) ?_
    refine RW.bind (RW.int32 h_language_dll_description) ?_
    refine RW.bind (RW.int16 hr_research_time) ?_
    refine RW.bind (RW.int16 h_effect_id) ?_
    refine RW.bind (RW.int16 h_type) ?_
    refine RW.bind (RW.int16 h_icon_id) ?_
    refine RW.bind (RW.int8 hr_button_id) ?_
    refine RW.bind (RW.int32 h_language_dll_help) ?_
    refine RW.bind (RW.int32 h_language_dll_tech_tree) ?_
    refine RW.bind (RW.int32 hr_hot_key_id) ?_
    refine RW.bind (RW.debugString h_name) ?_
    refine RW.bind (RW.int8 h_repeatable) ?_
    exact RW.pure rfl

theorem Tech.good (v : Version) :
    Good v Tech.fromBytes (Tech.WF v) (fun x bs => Tech.toBytes v x = .ok bs) := by
  unfold Tech.fromBytes
  refine Good.getVersion ?_
  by_cases hv : 88 ≤ v.num
  · have hg : v.ge .VER_88 = true := (ge_iff _ _).2 hv
    rw [if_pos hg]
    unfold Tech.fromBytes88
    refine Good.bind (Good.int16Array6) fun required_techs h_required_techs => ?_
    refine Good.bind (Good.classArray3 (ResearchResourceCost.good v)) fun resource_costs h_resource_costs => ?_
    refine Good.bind (Good.int16) fun required_tech_count h_required_tech_count => ?_
    refine Good.bind (Good.int16) fun civ h_civ => ?_
    refine Good.bind (Good.int16) fun full_tech_mode h_full_tech_mode => ?_
    refine Good.bind (Good.int32) fun language_dll_name h_language_dll_name => ?_
    refine Good.bind (Good.int32) fun language_dll_description h_language_dll_description => ?_
    refine Good.bind (Good.int16) fun effect_id h_effect_id => ?_
    refine Good.bind (Good.int16) fun type h_type => ?_
    refine Good.bind (Good.int16) fun icon_id h_icon_id => ?_
    refine Good.bind (Good.int32) fun language_dll_help h_language_dll_help => ?_
    refine Good.bind (Good.int32) fun language_dll_tech_tree h_language_dll_tech_tree => ?_
    refine Good.bind (Good.debugString) fun name h_name => ?_
    refine Good.bind (Good.int8) fun repeatable h_repeatable => ?_
    refine Good.bind (Good.int16) fun research_location_count h_research_location_count => ?_
    refine Good.bind (Good.classArray _ (ResearchLocation.good v)) fun research_locations h_research_locations => ?_
    refine Good.pure ⟨h_required_techs, h_resource_costs, h_required_tech_count, h_civ, h_full_tech_mode, h_language_dll_name, h_language_dll_description, h_effect_id, h_type, h_icon_id, h_language_dll_help, h_language_dll_tech_tree, h_name, h_repeatable, since_pos hv (upTo_i16 h_research_location_count h_research_locations)⟩ ?_
    rintro b15 ⟨rfl, k15⟩ b14 k14 b13 k13 b12 k12 b11 k11 b10 k10 b9 k9 b8 k8 b7 k7 b6 k6 b5 k5 b4 k4 b3 k3 b2 k2 b1 k1 b0 k0
    rw [Tech.toBytes, if_pos hg, Tech.toBytes88]
    exact joinB_cons_ok k0 (joinB_cons_ok k1 (joinB_cons_ok k2 (joinB_cons_ok k3 (joinB_cons_ok k4 (joinB_cons_ok k5 (joinB_cons_ok k6 (joinB_cons_ok k7 (joinB_cons_ok k8 (joinB_cons_ok k9 (joinB_cons_ok k10 (joinB_cons_ok k11 (joinB_cons_ok k12 (joinB_cons_ok k13 (joinB_cons_ok k14 (joinB_cons_ok k15 rfl)))))))))))))))
  · have hg := not_ge (w := .VER_88) hv
    rw [if_neg hg]
    unfold Tech.fromBytes84
    refine Good.bind (Good.int16Array6) fun required_techs h_required_techs => ?_
    refine Good.bind (Good.classArray3 (ResearchResourceCost.good v)) fun resource_costs h_resource_costs => ?_
    refine Good.bind (Good.int16) fun required_tech_count h_required_tech_count => ?_
    refine Good.bind (Good.int16) fun civ h_civ => ?_
    refine Good.bind (Good.int16) fun full_tech_mode h_full_tech_mode => ?_
    refine Good.bind (Good.int16) fun research_location h_research_location => ?_
    refine Good.bind (Good.int32) fun language_dll_name h_language_dll_name => ?_
    refine Good.bind (Good.int32) fun language_dll_description h_language_dll_description => ?_
    refine Good.bind (Good.int16) fun research_time h_research_time => ?_
    refine Good.bind (Good.int16) fun effect_id h_effect_id => ?_
    refine Good.bind (Good.int16) fun type h_type => ?_
    refine Good.bind (Good.int16) fun icon_id h_icon_id => ?_
    refine Good.bind (Good.int8) fun button_id h_button_id => ?_
    refine Good.bind (Good.int32) fun language_dll_help h_language_dll_help => ?_
    refine Good.bind (Good.int32) fun language_dll_tech_tree h_language_dll_tech_tree => ?_
    refine Good.bind (Good.int32) fun hot_key h_hot_key => ?_
    refine Good.bind (Good.debugString) fun name h_name => ?_
    refine Good.bind (Good.int8) fun repeatable h_repeatable => ?_
    refine Good.pure ⟨h_required_techs, h_resource_costs, h_required_tech_count, h_civ, h_full_tech_mode, h_language_dll_name, h_language_dll_description, h_effect_id, h_type, h_icon_id, h_language_dll_help, h_language_dll_tech_tree, h_name, h_repeatable, since_neg hv ⟨rfl, by rintro y hy; obtain rfl := List.mem_singleton.1 hy; exact ⟨h_research_location, h_research_time, h_button_id, h_hot_key⟩⟩⟩ ?_
    rintro b17 k17 b16 k16 b15 k15 b14 k14 b13 k13 b12 k12 b11 k11 b10 k10 b9 k9 b8 k8 b7 k7 b6 k6 b5 k5 b4 k4 b3 k3 b2 k2 b1 k1 b0 k0
    rw [Tech.toBytes, if_neg hg, Tech.toBytes84]
    exact joinB_cons_ok k0 (joinB_cons_ok k1 (joinB_cons_ok k2 (joinB_cons_ok k3 (joinB_cons_ok k4 (joinB_cons_ok k5 (joinB_cons_ok k6 (joinB_cons_ok k7 (joinB_cons_ok k8 (joinB_cons_ok k9 (joinB_cons_ok k10 (joinB_cons_ok k11 (joinB_cons_ok k12 (joinB_cons_ok k13 (joinB_cons_ok k14 (joinB_cons_ok k15 (joinB_cons_ok k16 (joinB_cons_ok k17 rfl)))))))))))))))))

theorem slotPointers_i32 (l : List (Option α)) : AllOf IsI32 (slotPointers l) := by
  intro y hy
  obtain ⟨o, -, rfl⟩ := List.mem_map.1 hy
  cases o <;> simp [slotPointer, IsI32]

theorem slotPointers_length (l : List (Option α)) : (slotPointers l).length = l.length := by
  simp [slotPointers]

theorem Civ.unit_pointers_eq (x : Civ) : x.unit_pointers = slotPointers x.units := by
  unfold Civ.unit_pointers slotPointers
  congr 1; funext u; cases u <;> rfl

theorem Civ.rw {v : Version} {x : Civ} (h : Civ.WF v x) :
    RW v Civ.fromBytes (Civ.toBytes v x) x := by
  obtain ⟨x_player_type, x_name, x_tech_tree_id, x_team_bonus_id, x_resources, x_icon_set, x_units⟩ := x
  obtain ⟨h_player_type, h_name, h_tech_tree_id, h_team_bonus_id, h_resources, h_icon_set, h_units⟩ := h
  dsimp only at h_player_type h_name h_tech_tree_id h_team_bonus_id h_resources h_icon_set h_units
  unfold Civ.fromBytes Civ.toBytes
  simp only [Civ.unit_pointers_eq]
  refine RW.bind (RW.int8 h_player_type) ?_
  refine RW.bind (RW.debugString h_name) ?_
  refine RW.bind (RW.int16 (isI16_len h_resources.1)) ?_
  refine RW.bind (RW.int16 h_tech_tree_id) ?_
  refine RW.bind (RW.int16 h_team_bonus_id) ?_
  refine RW.bind (RW.floatArray rfl h_resources.2) ?_
  refine RW.bind (RW.int8 h_icon_set) ?_
  refine RW.bind (RW.int16 (isI16_len h_units.1)) ?_
  refine RW.bind (RW.int32Array (by rw [slotPointers_length]) (slotPointers_i32 _)) ?_
  refine RW.bind (RW.classArrayWithPointers rfl rfl fun o ho y hy => Unit.rw (h_units.2 o ho y hy)) ?_
  exact RW.pure rfl

theorem Civ.good (v : Version) :
    Good v Civ.fromBytes (Civ.WF v) (fun x bs => Civ.toBytes v x = .ok bs) := by
  unfold Civ.fromBytes
  refine Good.bind (Good.int8) fun player_type h_player_type => ?_
  refine Good.bind (Good.debugString) fun name h_name => ?_
  refine Good.bind (Good.int16) fun resources_size h_resources_size => ?_
  refine Good.bind (Good.int16) fun tech_tree_id h_tech_tree_id => ?_
  refine Good.bind (Good.int16) fun team_bonus_id h_team_bonus_id => ?_
  refine Good.bind (Good.floatArray _) fun resources h_resources => ?_
  refine Good.bind (Good.int8) fun icon_set h_icon_set => ?_
  refine Good.bind (Good.int16) fun units_size h_units_size => ?_
  refine Good.bind (Good.int32Array _) fun unit_pointers h_unit_pointers => ?_
  refine Good.bind (Good.classArrayWithPointers h_unit_pointers.1 (Unit.good v)) fun units h_units => ?_
  refine Good.pure ⟨h_player_type, h_name, h_tech_tree_id, h_team_bonus_id, upTo_i16 h_resources_size h_resources, h_icon_set, upTo_i16 h_units_size ⟨h_units.1.trans h_unit_pointers.1, h_units.2⟩⟩ ?_
  rintro b9 ⟨rfl, k9⟩ b8 ⟨l8, k8⟩ b7 k7 b6 k6 b5 ⟨rfl, k5⟩ b4 k4 b3 k3 b2 k2 b1 k1 b0 k0
  obtain rfl := l8.trans (by rw [slotPointers_length])
  unfold Civ.toBytes
  simp only [Civ.unit_pointers_eq]
  exact joinB_cons_ok k0 (joinB_cons_ok k1 (joinB_cons_ok k2 (joinB_cons_ok k3 (joinB_cons_ok k4 (joinB_cons_ok k5 (joinB_cons_ok k6 (joinB_cons_ok k7 (joinB_cons_ok k8 (joinB_cons_ok k9 rfl)))))))))

theorem TerrainRestriction.rw {v : Version} {n : Nat} {x : TerrainRestriction} (h : TerrainRestriction.WF v n x) :
    RW v (TerrainRestriction.fromBytesWithCount n) (TerrainRestriction.toBytes v x) x := by
  obtain ⟨x_a, x_b⟩ := x
  obtain ⟨⟨hl_a, h_a⟩, ⟨hl_b, h_b⟩⟩ := h
  dsimp only at hl_a h_a hl_b h_b
  unfold TerrainRestriction.fromBytesWithCount TerrainRestriction.toBytes
  rw [if_neg (by dsimp only; omega)]
  refine RW.bind (RW.floatArray (by dsimp only; omega) h_a) ?_
  refine RW.bind (RW.classArray (by dsimp only; omega) fun y hy => TerrainPassGraphic.rw (h_b y hy)) ?_
  exact RW.pure rfl

theorem TerrainRestriction.good (v : Version) (n : Int) :
    Good v (TerrainRestriction.fromBytesWithCount n) (TerrainRestriction.WF v n.toNat)
      (fun x bs => n = x.passable_buildable_dmg_multiplier.length ∧ TerrainRestriction.toBytes v x = .ok bs) := by
  unfold TerrainRestriction.fromBytesWithCount
  refine Good.bind (Good.floatArray n) fun a h_a => ?_
  refine Good.bind (Good.classArray n (TerrainPassGraphic.good v)) fun b h_b => ?_
  refine Good.pure ⟨h_a, h_b⟩ ?_
  rintro b1 ⟨l1, k1⟩ b0 ⟨l0, k0⟩
  refine ⟨l0, ?_⟩
  rw [TerrainRestriction.toBytes, if_neg (by dsimp only; omega)]
  exact joinB_cons_ok k0 (joinB_cons_ok k1 rfl)

end Genie
