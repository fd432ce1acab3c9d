import Verif.Proof.Records.Takes
/-! # Whatever is accepted for the items of a record is read: the other records -/

namespace Genie

theorem Takes.angleSounds {v : Version} {used cnt : Int} {l : List GraphicAngleSound}
    (h : AllOf (GraphicAngleSound.WF v) l) (hl : l.length = if used = 0 then 0 else cnt.toNat) :
    Takes v (readOr (used ≠ 0) (readClassArray GraphicAngleSound.fromBytes cnt (countStored := true)) [])
      (Layout.each (GraphicAngleSound.layout v) l) l := by
  unfold readOr
  by_cases hu : used = 0
  · rw [if_pos hu] at hl
    rw [if_neg (by simpa using hu)]
    obtain rfl := List.length_eq_zero_iff.1 hl
    exact Takes.pure rfl
  · rw [if_neg hu] at hl
    rw [if_pos hu]
    exact Takes.array hl.symm fun y hy => GraphicAngleSound.takes (h y hy)

theorem Graphic.takes {v : Version} {x : Graphic} (h : Graphic.WF v x) :
    Takes v Graphic.fromBytes (Graphic.layout v x) x := by
  obtain ⟨x_name, x_file_name, x_particle_effect_name, x_slp, x_is_loaded, x_old_color_flag, x_layer, x_player_color, x_transparent_selection, x_coordinates, x_sound_id, x_wwise_sound_id, x_angle_sounds_used, x_frame_count, x_angle_count, x_speed_multiplier, x_frame_duration, x_replay_delay, x_sequence_type, x_id, x_mirroring_mode, x_editor_flag, x_deltas, x_angle_sounds⟩ := x
  obtain ⟨h_name, h_file_name, h_particle_effect_name, h_slp, h_is_loaded, h_old_color_flag, h_layer, h_player_color, h_transparent_selection, h_coordinates, h_sound_id, h_wwise_sound_id, h_angle_sounds_used, h_frame_count, h_angle_count, h_speed_multiplier, h_frame_duration, h_replay_delay, h_sequence_type, h_id, h_mirroring_mode, h_editor_flag, h_deltas, h_angle_sounds⟩ := h
  dsimp only at h_name h_file_name h_particle_effect_name h_slp h_is_loaded h_old_color_flag h_layer h_player_color h_transparent_selection h_coordinates h_sound_id h_wwise_sound_id h_angle_sounds_used h_frame_count h_angle_count h_speed_multiplier h_frame_duration h_replay_delay h_sequence_type h_id h_mirroring_mode h_editor_flag h_deltas h_angle_sounds
  unfold Graphic.fromBytes Graphic.layout
  refine Takes.bind (Takes.debugString h_name) ?_
  refine Takes.bind (Takes.debugString h_file_name) ?_
  refine Takes.bind (Takes.debugString h_particle_effect_name) ?_
  refine Takes.bind (Takes.int32 h_slp) ?_
  refine Takes.bind (Takes.int8 h_is_loaded) ?_
  refine Takes.bind (Takes.int8 h_old_color_flag) ?_
  refine Takes.bind (Takes.int8 h_layer) ?_
  refine Takes.bind (Takes.int16 h_player_color) ?_
  refine Takes.bind (Takes.int8 h_transparent_selection) ?_
  refine Takes.bind (Takes.int16Array4 h_coordinates) ?_
  refine TakesR.bind (TakesR.countI16 h_deltas.1) fun _ _ => ?_
  refine Takes.bind (Takes.int16 h_sound_id) ?_
  refine Takes.bind (Takes.int32 h_wwise_sound_id) ?_
  refine Takes.bind (Takes.int8 h_angle_sounds_used) ?_
  refine Takes.bind (Takes.int16 h_frame_count) ?_
  refine Takes.bind (Takes.int16 h_angle_count) ?_
  refine Takes.bind (Takes.float h_speed_multiplier) ?_
  refine Takes.bind (Takes.float h_frame_duration) ?_
  refine Takes.bind (Takes.float h_replay_delay) ?_
  refine Takes.bind (Takes.int8 h_sequence_type) ?_
  refine Takes.bind (Takes.int16 h_id) ?_
  refine Takes.bind (Takes.int8 h_mirroring_mode) ?_
  refine Takes.bind (Takes.int8 h_editor_flag) ?_
  refine Takes.bind (Takes.classArray (by assumption) fun y hy => GraphicDelta.takes (h_deltas.2 y hy)) ?_
  refine Takes.bind (Takes.angleSounds h_angle_sounds.1 h_angle_sounds.2) ?_
  exact Takes.pure rfl

theorem TrainLocation.takes {v : Version} {x : TrainLocation} (h : TrainLocation.WF v x) :
    Takes v TrainLocation.fromBytes (TrainLocation.layout v x) x := by
  unfold TrainLocation.fromBytes TrainLocation.layout
  refine Takes.getVersion ?_
  by_cases hv : 88 ≤ v.num
  · have hg : v.ge .VER_88 = true := (ge_iff _ _).2 hv
    rw [if_pos hg, if_pos hv]
    unfold TrainLocation.fromBytes88
    refine Takes.map (Takes.unpack (cs := [.h, .h, .b, .l]) (by decide) (by decide)
      ⟨h.train_time, h.unit_id, h.button_id, h.hot_key_id.pos hv, trivial⟩ (by decide)) ?_
    exact Fetch.pure rfl
  · have hg := not_ge (w := .VER_88) hv
    rw [if_neg hg, if_neg hv]
    unfold TrainLocation.fromBytes84
    refine Takes.map (Takes.unpack (cs := [.h, .h, .b]) (by decide) (by decide)
      ⟨h.train_time, h.unit_id, h.button_id, trivial⟩ (by decide)) ?_
    dsimp only [popInt, popFloat, popDone]
    rw [← h.hot_key_id.neg hv]
    exact Fetch.pure rfl

theorem Task.takes {v : Version} {x : Task} (h : Task.WF v x) : Takes v Task.fromBytes (Task.layout v x) x := by
  unfold Task.fromBytes Task.layout
  refine Takes.getVersion ?_
  by_cases hv : 88 ≤ v.num
  · have hg : v.ge .VER_88 = true := (ge_iff _ _).2 hv
    rw [if_pos hg, if_pos hv, if_pos hv]
    have henabled := h.enabled.pos hv
    unfold Task.fromBytes88
    simp only [List.cons_append, List.nil_append, List.append_nil]
    refine Takes.map (Takes.unpack (cs := [.h, .h, .b, .h, .h, .h, .h, .h, .h, .h, .h, .f, .f, .f, .b, .f, .b, .b, .h, .h, .b, .b, .b, .h, .h, .h, .h, .h, .h, .l, .l, .h]) (by decide) (by decide)
      ⟨h.task_type, h.id, h.is_default, h.action_type, h.class_id, h.unit_id, h.terrain_id, h.resource_in, h.resource_multiplier, h.resource_out, h.unused_resource, h.work_value_1, h.work_value_2, h.work_range, h.auto_search_targets, h.search_wait_time, h.enable_targeting, h.combat_level_flag, h.gather_type, h.work_flag_2, h.target_diplomacy, h.carry_check, h.pick_for_construction, h.moving_graphic_id, h.proceeding_graphic_id, h.working_graphic_id, h.carrying_graphic_id, h.resource_gathering_sound_id, h.resource_deposit_sound_id, h.wwise_resource_gathering_sound_id, h.wwise_resource_deposit_sound_id, henabled, trivial⟩ (by decide)) ?_
    dsimp only [popInt, popFloat, popDone]
    exact Fetch.pure rfl
  · have hg : ¬ v.ge .VER_88 = true := fun k => hv ((ge_iff _ _).1 k)
    rw [if_neg hg, if_neg hv, if_neg hv]
    have henabled := h.enabled.neg hv
    unfold Task.fromBytes84
    simp only [List.cons_append, List.nil_append, List.append_nil]
    refine Takes.map (Takes.unpack (cs := [.h, .h, .b, .h, .h, .h, .h, .h, .h, .h, .h, .f, .f, .f, .b, .f, .b, .b, .h, .h, .b, .b, .b, .h, .h, .h, .h, .h, .h, .l, .l]) (by decide) (by decide)
      ⟨h.task_type, h.id, h.is_default, h.action_type, h.class_id, h.unit_id, h.terrain_id, h.resource_in, h.resource_multiplier, h.resource_out, h.unused_resource, h.work_value_1, h.work_value_2, h.work_range, h.auto_search_targets, h.search_wait_time, h.enable_targeting, h.combat_level_flag, h.gather_type, h.work_flag_2, h.target_diplomacy, h.carry_check, h.pick_for_construction, h.moving_graphic_id, h.proceeding_graphic_id, h.working_graphic_id, h.carrying_graphic_id, h.resource_gathering_sound_id, h.resource_deposit_sound_id, h.wwise_resource_gathering_sound_id, h.wwise_resource_deposit_sound_id, trivial⟩ (by decide)) ?_
    dsimp only [popInt, popFloat, popDone]
    rw [← henabled]
    exact Fetch.pure rfl

theorem UnitHeaders.takes {v : Version} {x : UnitHeaders} (h : UnitHeaders.WF v x) :
    Takes v UnitHeaders.fromBytes (UnitHeaders.layout v x) x := by
  obtain ⟨x_exists_, x_task_list⟩ := x
  obtain ⟨h1, h2, h3⟩ := h
  dsimp only at h1 h2 h3
  unfold UnitHeaders.fromBytes
  rw [show UnitHeaders.layout v ⟨x_exists_, x_task_list⟩ = List.flatten [Layout.u8 x_exists_, Layout.part (x_exists_ ≠ 0)
    (fun tasks => Layout.countI16 tasks ++ Layout.each (Task.layout v) tasks) x_task_list] by simp [UnitHeaders.layout]]
  refine Takes.bind (Takes.int8 h1) (TakesR.last ?_)
  by_cases he : x_exists_ ≠ 0
  · obtain ⟨l, rfl⟩ := Option.isSome_iff_exists.1 (h2.1 he)
    have hl := h3 l rfl
    rw [if_pos he, Layout.part, if_pos he]
    rw [show Layout.countI16 l ++ Layout.each (Task.layout v) l = List.flatten [Layout.countI16 l, Layout.each (Task.layout v) l] by simp]
    refine TakesR.bind (TakesR.countI16 hl.1) fun _ _ => ?_
    refine Takes.bind (Takes.classArray (by assumption) fun y hy => Task.takes (hl.2 y hy)) ?_
    exact Takes.pure rfl
  · have : x_task_list = none := by
      cases x_task_list with
      | none => rfl
      | some l => exact absurd (h2.2 rfl) he
    subst this
    rw [if_neg he, Layout.part, if_neg he]
    exact Takes.pure rfl

theorem Bird.takes {v : Version} {x : Bird} (h : Bird.WF v x) : Takes v Bird.fromBytes (Bird.layout v x) x := by
  unfold Bird.fromBytes Bird.layout
  refine Takes.bind (Takes.int16 h.default_task_id) ?_
  refine Takes.bind (Takes.float h.search_radius) ?_
  refine Takes.bind (Takes.float h.work_rate) ?_
  refine Takes.getVersion ?_
  have hsites : AllOf IsI16 x.drop_sites := by
    by_cases hv : 78 ≤ v.num
    · exact (h.drop_sites.pos hv).2
    · exact (h.drop_sites.neg hv).2
  refine TakesR.bind (R := fun i : Int => i.toNat = x.drop_sites.length) ?_ fun _ _ => ?_
  · by_cases hv : 78 ≤ v.num
    · have hg : v.gt .VER_77 = true := (gt_iff _ _).2 hv
      rw [readOr, if_pos hg, Layout.since, if_pos hv]
      exact TakesR.countI16 (h.drop_sites.pos hv).1
    · have hg : ¬ v.gt .VER_77 = true := fun k => hv ((gt_iff _ _).1 k)
      rw [readOr, if_neg hg, Layout.since, if_neg hv]
      refine Takes.pureNil ?_
      rw [(h.drop_sites.neg hv).1]; rfl
  refine Takes.bind (Takes.int16Array (by assumption) hsites) ?_
  refine Takes.bind (Takes.int8 h.task_swap_group) ?_
  refine Takes.bind (Takes.int16 h.attack_sound) ?_
  refine Takes.bind (Takes.int16 h.move_sound) ?_
  refine Takes.bind (Takes.int32 h.wwise_attack_sound_id) ?_
  refine Takes.bind (Takes.int32 h.wwise_move_sound_id) ?_
  refine Takes.bind (Takes.int8 h.run_pattern) ?_
  refine TakesR.bind (TakesR.countI16 h.tasks.1) fun _ _ => ?_
  refine Takes.bind (Takes.classArray (by assumption) fun y hy => Task.takes (h.tasks.2 y hy)) ?_
  exact Takes.pure rfl

theorem Type50.takes {v : Version} {x : Type50} (h : Type50.WF v x) :
    Takes v Type50.fromBytes (Type50.layout v x) x := by
  unfold Type50.fromBytes Type50.layout
  refine Takes.bind (Takes.int16 h.base_armor) ?_
  refine TakesR.bind (TakesR.countI16 h.attacks.1) fun _ _ => ?_
  refine Takes.bind (Takes.classArray (by assumption) fun y hy => AttackOrArmor.takes (h.attacks.2 y hy)) ?_
  refine TakesR.bind (TakesR.countI16 h.armours.1) fun _ _ => ?_
  refine Takes.bind (Takes.classArray (by assumption) fun y hy => AttackOrArmor.takes (h.armours.2 y hy)) ?_
  refine Takes.bind (Takes.int16 h.defense_terrain_bonus) ?_
  refine Takes.bind (Takes.float h.bonus_damage_resistance) ?_
  refine Takes.bind (Takes.float h.max_range) ?_
  refine Takes.bind (Takes.float h.blast_width) ?_
  refine Takes.bind (Takes.float h.reload_time) ?_
  refine Takes.bind (Takes.int16 h.projectile_unit_id) ?_
  refine Takes.bind (Takes.int16 h.accuracy_percent) ?_
  refine Takes.bind (Takes.int8 h.break_off_combat) ?_
  refine Takes.bind (Takes.int16 h.frame_delay) ?_
  refine Takes.bind (Takes.floatArray3 h.graphic_displacement) ?_
  refine Takes.bind (Takes.int8 h.blast_attack_level) ?_
  refine Takes.bind (Takes.float h.min_range) ?_
  refine Takes.bind (Takes.float h.accuracy_dispersion) ?_
  refine Takes.bind (Takes.int16 h.attack_graphic) ?_
  refine Takes.bind (Takes.int16 h.displayed_melee_armour) ?_
  refine Takes.bind (Takes.int16 h.displayed_attack) ?_
  refine Takes.bind (Takes.float h.displayed_range) ?_
  refine Takes.bind (Takes.float h.displayed_reload_time) ?_
  refine Takes.bind (Takes.float h.blast_damage) ?_
  refine Takes.getVersion ?_
  by_cases hv : 84 ≤ v.num
  · have hg : v.ge .VER_84 = true := (ge_iff _ _).2 hv
    simp only [readOr, hg, if_true]
    rw [Layout.since, if_pos hv]
    refine TakesR.last ?_
    refine Takes.bind (Takes.float (h.damage_reflection.pos hv)) ?_
    refine Takes.bind (Takes.float (h.friendly_fire_damage.pos hv)) ?_
    refine Takes.bind (Takes.int16 (h.interrupt_frame.pos hv)) ?_
    refine Takes.bind (Takes.float (h.garrison_firepower.pos hv)) ?_
    refine Takes.bind (Takes.int16 (h.attack_graphic_2.pos hv)) ?_
    exact Takes.pure rfl
  · have hg : v.ge .VER_84 = false := by
      cases hh : v.ge .VER_84
      · rfl
      · exact absurd ((ge_iff _ _).1 hh) hv
    simp only [readOr, hg, Bool.false_eq_true, if_false]
    have e_damage_reflection := h.damage_reflection.neg hv
    have e_friendly_fire_damage := h.friendly_fire_damage.neg hv
    have e_interrupt_frame := h.interrupt_frame.neg hv
    have e_garrison_firepower := h.garrison_firepower.neg hv
    have e_attack_graphic_2 := h.attack_graphic_2.neg hv
    rw [Layout.since, if_neg hv]
    refine TakesR.last (Takes.pureNil ?_)
    cases x
    simp only at e_damage_reflection e_friendly_fire_damage e_interrupt_frame e_garrison_firepower e_attack_graphic_2
    subst e_damage_reflection e_friendly_fire_damage e_interrupt_frame e_garrison_firepower e_attack_graphic_2
    rfl

theorem TerrainRestriction.takes {v : Version} {n : Int} {x : TerrainRestriction} (h : TerrainRestriction.WF v n.toNat x) :
    Takes v (TerrainRestriction.fromBytesWithCount n) (TerrainRestriction.layout v x) x := by
  obtain ⟨x_a, x_b⟩ := x
  obtain ⟨⟨hl_a, h_a⟩, ⟨hl_b, h_b⟩⟩ := h
  dsimp only at hl_a h_a hl_b h_b
  unfold TerrainRestriction.fromBytesWithCount TerrainRestriction.layout
  refine TakesR.requires ?_
  refine Takes.bind (Takes.floatArray (by dsimp only; omega) h_a) ?_
  refine Takes.bind (Takes.classArray (by dsimp only; omega) fun y hy => TerrainPassGraphic.takes (h_b y hy)) ?_
  exact Takes.pure rfl

theorem Tech.takes {v : Version} {x : Tech} (h : Tech.WF v x) :
    Takes v Tech.fromBytes (Tech.layout v x) x := by
  obtain ⟨x_required_techs, x_resource_costs, x_required_tech_count, x_civ, x_full_tech_mode, x_language_dll_name, x_language_dll_description, x_effect_id, x_type, x_icon_id, x_language_dll_help, x_language_dll_tech_tree, x_name, x_repeatable, x_research_locations⟩ := x
  obtain ⟨h_required_techs, h_resource_costs, h_required_tech_count, h_civ, h_full_tech_mode, h_language_dll_name, h_language_dll_description, h_effect_id, h_type, h_icon_id, h_language_dll_help, h_language_dll_tech_tree, h_name, h_repeatable, h_research_locations⟩ := h
  dsimp only at h_required_techs h_resource_costs h_required_tech_count h_civ h_full_tech_mode h_language_dll_name h_language_dll_description h_effect_id h_type h_icon_id h_language_dll_help h_language_dll_tech_tree h_name h_repeatable h_research_locations
  unfold Tech.fromBytes Tech.layout
  refine Takes.getVersion ?_
  by_cases hv : 88 ≤ v.num
  · have hg : v.ge .VER_88 = true := (ge_iff _ _).2 hv
    rw [if_pos hg, if_pos hv]
    replace h_research_locations := h_research_locations.pos hv
    unfold Tech.fromBytes88
    refine Takes.bind (Takes.int16Array6 h_required_techs) ?_
    refine Takes.bind (Takes.classArray3 h_resource_costs.1 fun y hy => ResearchResourceCost.takes (h_resource_costs.2 y hy)) ?_
    refine Takes.bind (Takes.int16 h_required_tech_count) ?_
    refine Takes.bind (Takes.int16 h_civ) ?_
    refine Takes.bind (Takes.int16 h_full_tech_mode) ?_
    refine Takes.bind (Takes.int32 h_language_dll_name) ?_
    refine Takes.bind (Takes.int32 h_language_dll_description) ?_
    refine Takes.bind (Takes.int16 h_effect_id) ?_
    refine Takes.bind (Takes.int16 h_type) ?_
    refine Takes.bind (Takes.int16 h_icon_id) ?_
    refine Takes.bind (Takes.int32 h_language_dll_help) ?_
    refine Takes.bind (Takes.int32 h_language_dll_tech_tree) ?_
    refine Takes.bind (Takes.debugString h_name) ?_
    refine Takes.bind (Takes.int8 h_repeatable) ?_
    refine TakesR.bind (TakesR.countI16 h_research_locations.1) fun _ _ => ?_
    refine Takes.bind (Takes.classArray (by assumption) fun y hy => ResearchLocation.takes (h_research_locations.2 y hy)) ?_
    exact Takes.pure rfl
  · have hg := not_ge (w := .VER_88) hv
    rw [if_neg hg, if_neg hv]
    replace h_research_locations := h_research_locations.neg hv
    obtain ⟨hl, hr⟩ := h_research_locations
    obtain ⟨r, rfl⟩ := length_eq_1 hl
    obtain ⟨hr_location_id, hr_research_time, hr_button_id, hr_hot_key_id⟩ := hr r (by simp)
    unfold Tech.fromBytes84
    dsimp only
    refine Takes.bind (Takes.int16Array6 h_required_techs) ?_
    refine Takes.bind (Takes.classArray3 h_resource_costs.1 fun y hy => ResearchResourceCost.takes (h_resource_costs.2 y hy)) ?_
    refine Takes.bind (Takes.int16 h_required_tech_count) ?_
    refine Takes.bind (Takes.int16 h_civ) ?_
    refine Takes.bind (Takes.int16 h_full_tech_mode) ?_
    refine Takes.bind (Takes.int16 hr_location_id) ?_
    refine Takes.bind (Takes.int32 h_language_dll_name) ?_
    refine Takes.bind (Takes.int32 h_language_dll_description) ?_
    refine Takes.bind (Takes.int16 hr_research_time) ?_
    refine Takes.bind (Takes.int16 h_effect_id) ?_
    refine Takes.bind (Takes.int16 h_type) ?_
    refine Takes.bind (Takes.int16 h_icon_id) ?_
    refine Takes.bind (Takes.int8 hr_button_id) ?_
    refine Takes.bind (Takes.int32 h_language_dll_help) ?_
    refine Takes.bind (Takes.int32 h_language_dll_tech_tree) ?_
    refine Takes.bind (Takes.int32 hr_hot_key_id) ?_
    refine Takes.bind (Takes.debugString h_name) ?_
    refine Takes.bind (Takes.int8 h_repeatable) ?_
    exact Takes.pure rfl

end Genie
