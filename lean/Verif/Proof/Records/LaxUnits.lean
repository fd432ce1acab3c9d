import Verif.Proof.Records.Lax
import Verif.Proof.Records.Top
/-! # The records, item by item: the other ones -/

namespace Genie

theorem Lax.angleSounds {v : Version} {used cnt : Int} :
    Lax v (readOr (used ≠ 0) (readClassArray GraphicAngleSound.fromBytes cnt (countStored := true)) [])
      (fun _ => True) (fun l bs => ReadAsM (Layout.each (GraphicAngleSound.layout v) l) bs) := by
  unfold readOr
  by_cases hu : used ≠ 0
  · rw [if_pos hu]
    exact Lax.mono (Lax.classArray cnt (GraphicAngleSound.lax v)) (fun _ _ => trivial) (fun _ _ _ h => h)
  · rw [if_neg hu]
    exact Lax.pure trivial ReadAsM.nil

theorem Graphic.lax (v : Version) :
    Lax v Graphic.fromBytes (fun _ => True) (fun x bs => ReadAsM (Graphic.layout v x) bs) := by
  unfold Graphic.fromBytes
  refine Lax.bind (Lax.debugString) fun name h_name => ?_
  refine Lax.bind (Lax.debugString) fun file_name h_file_name => ?_
  refine Lax.bind (Lax.debugString) fun particle_effect_name h_particle_effect_name => ?_
  refine Lax.bind (Lax.int32) fun slp h_slp => ?_
  refine Lax.bind (Lax.int8) fun is_loaded h_is_loaded => ?_
  refine Lax.bind (Lax.int8) fun old_color_flag h_old_color_flag => ?_
  refine Lax.bind (Lax.int8) fun layer h_layer => ?_
  refine Lax.bind (Lax.int16) fun player_color h_player_color => ?_
  refine Lax.bind (Lax.int8) fun transparent_selection h_transparent_selection => ?_
  refine Lax.bind (Lax.int16Array4) fun coordinates h_coordinates => ?_
  refine Lax.bind (Lax.int16) fun delta_count h_delta_count => ?_
  refine Lax.bind (Lax.int16) fun sound_id h_sound_id => ?_
  refine Lax.bind (Lax.int32) fun wwise_sound_id h_wwise_sound_id => ?_
  refine Lax.bind (Lax.int8) fun angle_sounds_used h_angle_sounds_used => ?_
  refine Lax.bind (Lax.int16) fun frame_count h_frame_count => ?_
  refine Lax.bind (Lax.int16) fun angle_count h_angle_count => ?_
  refine Lax.bind (Lax.float) fun speed_multiplier h_speed_multiplier => ?_
  refine Lax.bind (Lax.float) fun frame_duration h_frame_duration => ?_
  refine Lax.bind (Lax.float) fun replay_delay h_replay_delay => ?_
  refine Lax.bind (Lax.int8) fun sequence_type h_sequence_type => ?_
  refine Lax.bind (Lax.int16) fun id_ h_id_ => ?_
  refine Lax.bind (Lax.int8) fun mirroring_mode h_mirroring_mode => ?_
  refine Lax.bind (Lax.int8) fun editor_flag h_editor_flag => ?_
  refine Lax.bind (Lax.classArray _ (GraphicDelta.lax v)) fun deltas h_deltas => ?_
  refine Lax.bind (Lax.angleSounds) fun angle_sounds h_angle_sounds => ?_
  refine Lax.pure trivial ?_
  intro b24 k24 b23 k23 b22 k22 b21 k21 b20 k20 b19 k19 b18 k18 b17 k17 b16 k16 b15 k15 b14 k14 b13 k13 b12 k12 b11 k11 b10 k10 b9 k9 b8 k8 b7 k7 b6 k6 b5 k5 b4 k4 b3 k3 b2 k2 b1 k1 b0 k0
  simp only [Graphic.layout]
  exact ReadAsM.cons k0 (.cons k1 (.cons k2 (.cons (by first | exact k3.int | exact k3.count (by assumption)) (.cons (by first | exact k4.int | exact k4.count (by assumption)) (.cons (by first | exact k5.int | exact k5.count (by assumption)) (.cons (by first | exact k6.int | exact k6.count (by assumption)) (.cons (by first | exact k7.int | exact k7.count (by assumption)) (.cons (by first | exact k8.int | exact k8.count (by assumption)) (.cons k9 (.cons (by first | exact k10.int | exact k10.count (by assumption)) (.cons (by first | exact k11.int | exact k11.count (by assumption)) (.cons (by first | exact k12.int | exact k12.count (by assumption)) (.cons (by first | exact k13.int | exact k13.count (by assumption)) (.cons (by first | exact k14.int | exact k14.count (by assumption)) (.cons (by first | exact k15.int | exact k15.count (by assumption)) (.cons k16 (.cons k17 (.cons k18 (.cons (by first | exact k19.int | exact k19.count (by assumption)) (.cons (by first | exact k20.int | exact k20.count (by assumption)) (.cons (by first | exact k21.int | exact k21.count (by assumption)) (.cons (by first | exact k22.int | exact k22.count (by assumption)) (.cons k23 (.cons k24 ReadAsM.nil))))))))))))))))))))))))

theorem TrainLocation.lax (v : Version) :
    Lax v TrainLocation.fromBytes (fun _ => True) (fun x bs => ReadAsM (TrainLocation.layout v x) bs) := by
  unfold TrainLocation.fromBytes
  refine Lax.getVersion ?_
  by_cases hv : 88 ≤ v.num
  · have hg : v.ge .VER_88 = true := (ge_iff _ _).2 hv
    rw [if_pos hg]
    unfold TrainLocation.fromBytes88
    refine Lax.bind (Lax.unpack (cs := [.h, .h, .b, .l]) (by decide) (by decide)) fun vs hm => ?_
    obtain ⟨a, vs, rfl, h_a, hm⟩ := hm.popH
    obtain ⟨b, vs, rfl, h_b, hm⟩ := hm.popH
    obtain ⟨c, vs, rfl, h_c, hm⟩ := hm.popB
    obtain ⟨d, vs, rfl, h_d, hm⟩ := hm.popL
    obtain rfl := hm.done
    dsimp only [popInt, popFloat, popDone]
    refine Lax.pure trivial ?_
    intro b0 k0
    simp only [TrainLocation.layout, if_pos hv]
    rw [List.append_nil]; exact (k0 _ (by decide))
  · have hg := not_ge (w := .VER_88) hv
    rw [if_neg hg]
    unfold TrainLocation.fromBytes84
    refine Lax.bind (Lax.unpack (cs := [.h, .h, .b]) (by decide) (by decide)) fun vs hm => ?_
    obtain ⟨a, vs, rfl, h_a, hm⟩ := hm.popH
    obtain ⟨b, vs, rfl, h_b, hm⟩ := hm.popH
    obtain ⟨c, vs, rfl, h_c, hm⟩ := hm.popB
    obtain rfl := hm.done
    dsimp only [popInt, popFloat, popDone]
    refine Lax.pure trivial ?_
    intro b0 k0
    simp only [TrainLocation.layout, if_neg hv]
    rw [List.append_nil]; exact (k0 _ (by decide))

theorem Creatable.lax (v : Version) :
    Lax v Creatable.fromBytes (fun _ => True) (fun x bs => ReadAsM (Creatable.layout v x) bs) := by
  unfold Creatable.fromBytes
  refine Lax.getVersion ?_
  by_cases hv : 88 ≤ v.num
  · have hg : v.ge .VER_88 = true := (ge_iff _ _).2 hv
    have hv4 : 84 ≤ v.num := by omega
    rw [if_pos hg]
    unfold Creatable.fromBytes88
    refine Lax.bind (Lax.classArray3 (ResourceCost.lax v)) fun resource_costs h_resource_costs => ?_
    refine Lax.bind Lax.int16 fun n hn => ?_
    refine Lax.bind (Lax.classArray _ (TrainLocation.lax v)) fun train_locations h_train_locations => ?_
    refine Lax.bind (Lax.unpack (cs := [Code.f, Code.f, Code.b, Code.b, Code.l, Code.h, Code.h, Code.h, Code.h, Code.f, Code.f, Code.h, Code.h, Code.h, Code.l, Code.b, Code.f, Code.h, Code.l, Code.l, Code.h, Code.f, Code.f, Code.f, Code.f, Code.b, Code.f, Code.f, Code.f, Code.l, Code.l, Code.b, Code.h]) (by decide) (by decide)) fun vs hm => ?_
    obtain ⟨rear_attack_modifier, vs, rfl, h_rear_attack_modifier, hm⟩ := hm.popF
    obtain ⟨flank_attack_modifier, vs, rfl, h_flank_attack_modifier, hm⟩ := hm.popF
    obtain ⟨creatable_type, vs, rfl, h_creatable_type, hm⟩ := hm.popB
    obtain ⟨hero_mode, vs, rfl, h_hero_mode, hm⟩ := hm.popB
    obtain ⟨garrison_graphic, vs, rfl, h_garrison_graphic, hm⟩ := hm.popL
    obtain ⟨spawning_graphic, vs, rfl, h_spawning_graphic, hm⟩ := hm.popH
    obtain ⟨upgrade_graphic, vs, rfl, h_upgrade_graphic, hm⟩ := hm.popH
    obtain ⟨hero_glow_graphic, vs, rfl, h_hero_glow_graphic, hm⟩ := hm.popH
    obtain ⟨idle_attack_graphic, vs, rfl, h_idle_attack_graphic, hm⟩ := hm.popH
    obtain ⟨max_charge, vs, rfl, h_max_charge, hm⟩ := hm.popF
    obtain ⟨recharge_rate, vs, rfl, h_recharge_rate, hm⟩ := hm.popF
    obtain ⟨charge_event, vs, rfl, h_charge_event, hm⟩ := hm.popH
    obtain ⟨charge_type, vs, rfl, h_charge_type, hm⟩ := hm.popH
    obtain ⟨charge_target, vs, rfl, h_charge_target, hm⟩ := hm.popH
    obtain ⟨charge_projectile_unit, vs, rfl, h_charge_projectile_unit, hm⟩ := hm.popL
    obtain ⟨attack_priority, vs, rfl, h_attack_priority, hm⟩ := hm.popB
    obtain ⟨invulnerability_level, vs, rfl, h_invulnerability_level, hm⟩ := hm.popF
    obtain ⟨button_icon_id, vs, rfl, h_button_icon_id, hm⟩ := hm.popH
    obtain ⟨button_short_tooltip_id, vs, rfl, h_button_short_tooltip_id, hm⟩ := hm.popL
    obtain ⟨button_extended_tooltip_id, vs, rfl, h_button_extended_tooltip_id, hm⟩ := hm.popL
    obtain ⟨button_hotkey_action, vs, rfl, h_button_hotkey_action, hm⟩ := hm.popH
    obtain ⟨min_conversion_time_mod, vs, rfl, h_min_conversion_time_mod, hm⟩ := hm.popF
    obtain ⟨max_conversion_time_mod, vs, rfl, h_max_conversion_time_mod, hm⟩ := hm.popF
    obtain ⟨conversion_chance_mod, vs, rfl, h_conversion_chance_mod, hm⟩ := hm.popF
    obtain ⟨total_projectiles, vs, rfl, h_total_projectiles, hm⟩ := hm.popF
    obtain ⟨max_total_projectiles, vs, rfl, h_max_total_projectiles, hm⟩ := hm.popB
    obtain ⟨projectile_spawning_area_1, vs, rfl, h_projectile_spawning_area_1, hm⟩ := hm.popF
    obtain ⟨projectile_spawning_area_2, vs, rfl, h_projectile_spawning_area_2, hm⟩ := hm.popF
    obtain ⟨projectile_spawning_area_3, vs, rfl, h_projectile_spawning_area_3, hm⟩ := hm.popF
    obtain ⟨secondary_projectile_unit, vs, rfl, h_secondary_projectile_unit, hm⟩ := hm.popL
    obtain ⟨special_graphic, vs, rfl, h_special_graphic, hm⟩ := hm.popL
    obtain ⟨special_ability, vs, rfl, h_special_ability, hm⟩ := hm.popB
    obtain ⟨displayed_pierce_armour, vs, rfl, h_displayed_pierce_armour, hm⟩ := hm.popH
    obtain rfl := hm.done
    dsimp only [popInt, popFloat, popDone]
    refine Lax.pure trivial ?_
    intro b3 k3 b2 k2 b1 k1 b0 k0
    simp only [Creatable.layout, if_pos hv]
    exact ReadAsM.cons k0 (.cons (by first | exact k1.int | exact k1.count (by assumption)) (.cons k2 (.cons (k3 _ (by decide)) ReadAsM.nil)))
  · have hg := not_ge (w := .VER_88) hv
    rw [if_neg hg]
    by_cases hv4 : 84 ≤ v.num
    · have hg4 : v.ge .VER_84 = true := (ge_iff _ _).2 hv4
      rw [if_pos hg4]
      unfold Creatable.fromBytes84
      refine Lax.bind (Lax.classArray3 (ResourceCost.lax v)) fun resource_costs h_resource_costs => ?_
      refine Lax.bind (Lax.unpack (cs := [Code.h, Code.h, Code.b, Code.f, Code.f, Code.b, Code.b, Code.l, Code.h, Code.h, Code.h, Code.h, Code.f, Code.f, Code.h, Code.h, Code.h, Code.l, Code.b, Code.f, Code.h, Code.l, Code.l, Code.h, Code.f, Code.f, Code.f, Code.f, Code.b, Code.f, Code.f, Code.f, Code.l, Code.l, Code.b, Code.h]) (by decide) (by decide)) fun vs hm => ?_
      obtain ⟨train_time, vs, rfl, h_train_time, hm⟩ := hm.popH
      obtain ⟨train_location_id, vs, rfl, h_train_location_id, hm⟩ := hm.popH
      obtain ⟨button_id, vs, rfl, h_button_id, hm⟩ := hm.popB
      obtain ⟨rear_attack_modifier, vs, rfl, h_rear_attack_modifier, hm⟩ := hm.popF
      obtain ⟨flank_attack_modifier, vs, rfl, h_flank_attack_modifier, hm⟩ := hm.popF
      obtain ⟨creatable_type, vs, rfl, h_creatable_type, hm⟩ := hm.popB
      obtain ⟨hero_mode, vs, rfl, h_hero_mode, hm⟩ := hm.popB
      obtain ⟨garrison_graphic, vs, rfl, h_garrison_graphic, hm⟩ := hm.popL
      obtain ⟨spawning_graphic, vs, rfl, h_spawning_graphic, hm⟩ := hm.popH
      obtain ⟨upgrade_graphic, vs, rfl, h_upgrade_graphic, hm⟩ := hm.popH
      obtain ⟨hero_glow_graphic, vs, rfl, h_hero_glow_graphic, hm⟩ := hm.popH
      obtain ⟨idle_attack_graphic, vs, rfl, h_idle_attack_graphic, hm⟩ := hm.popH
      obtain ⟨max_charge, vs, rfl, h_max_charge, hm⟩ := hm.popF
      obtain ⟨recharge_rate, vs, rfl, h_recharge_rate, hm⟩ := hm.popF
      obtain ⟨charge_event, vs, rfl, h_charge_event, hm⟩ := hm.popH
      obtain ⟨charge_type, vs, rfl, h_charge_type, hm⟩ := hm.popH
      obtain ⟨charge_target, vs, rfl, h_charge_target, hm⟩ := hm.popH
      obtain ⟨charge_projectile_unit, vs, rfl, h_charge_projectile_unit, hm⟩ := hm.popL
      obtain ⟨attack_priority, vs, rfl, h_attack_priority, hm⟩ := hm.popB
      obtain ⟨invulnerability_level, vs, rfl, h_invulnerability_level, hm⟩ := hm.popF
      obtain ⟨button_icon_id, vs, rfl, h_button_icon_id, hm⟩ := hm.popH
      obtain ⟨button_short_tooltip_id, vs, rfl, h_button_short_tooltip_id, hm⟩ := hm.popL
      obtain ⟨button_extended_tooltip_id, vs, rfl, h_button_extended_tooltip_id, hm⟩ := hm.popL
      obtain ⟨button_hotkey_action, vs, rfl, h_button_hotkey_action, hm⟩ := hm.popH
      obtain ⟨min_conversion_time_mod, vs, rfl, h_min_conversion_time_mod, hm⟩ := hm.popF
      obtain ⟨max_conversion_time_mod, vs, rfl, h_max_conversion_time_mod, hm⟩ := hm.popF
      obtain ⟨conversion_chance_mod, vs, rfl, h_conversion_chance_mod, hm⟩ := hm.popF
      obtain ⟨total_projectiles, vs, rfl, h_total_projectiles, hm⟩ := hm.popF
      obtain ⟨max_total_projectiles, vs, rfl, h_max_total_projectiles, hm⟩ := hm.popB
      obtain ⟨projectile_spawning_area_1, vs, rfl, h_projectile_spawning_area_1, hm⟩ := hm.popF
      obtain ⟨projectile_spawning_area_2, vs, rfl, h_projectile_spawning_area_2, hm⟩ := hm.popF
      obtain ⟨projectile_spawning_area_3, vs, rfl, h_projectile_spawning_area_3, hm⟩ := hm.popF
      obtain ⟨secondary_projectile_unit, vs, rfl, h_secondary_projectile_unit, hm⟩ := hm.popL
      obtain ⟨special_graphic, vs, rfl, h_special_graphic, hm⟩ := hm.popL
      obtain ⟨special_ability, vs, rfl, h_special_ability, hm⟩ := hm.popB
      obtain ⟨displayed_pierce_armour, vs, rfl, h_displayed_pierce_armour, hm⟩ := hm.popH
      obtain rfl := hm.done
      dsimp only [popInt, popFloat, popDone]
      refine Lax.pure trivial ?_
      intro b1 k1 b0 k0
      simp only [Creatable.layout, if_neg hv, if_pos hv4]
      rw [List.append_nil]; exact ReadAsM.append k0 (k1 _ (by decide))
    · have hg4 := not_ge (w := .VER_84) hv4
      rw [if_neg hg4]
      unfold Creatable.fromBytes78
      refine Lax.bind (Lax.classArray3 (ResourceCost.lax v)) fun resource_costs h_resource_costs => ?_
      refine Lax.bind (Lax.unpack (cs := [Code.h, Code.h, Code.b, Code.f, Code.f, Code.b, Code.b, Code.l, Code.h, Code.h, Code.h, Code.f, Code.f, Code.h, Code.h, Code.f, Code.f, Code.f, Code.f, Code.b, Code.f, Code.f, Code.f, Code.l, Code.l, Code.b, Code.h]) (by decide) (by decide)) fun vs hm => ?_
      obtain ⟨train_time, vs, rfl, h_train_time, hm⟩ := hm.popH
      obtain ⟨train_location_id, vs, rfl, h_train_location_id, hm⟩ := hm.popH
      obtain ⟨button_id, vs, rfl, h_button_id, hm⟩ := hm.popB
      obtain ⟨rear_attack_modifier, vs, rfl, h_rear_attack_modifier, hm⟩ := hm.popF
      obtain ⟨flank_attack_modifier, vs, rfl, h_flank_attack_modifier, hm⟩ := hm.popF
      obtain ⟨creatable_type, vs, rfl, h_creatable_type, hm⟩ := hm.popB
      obtain ⟨hero_mode, vs, rfl, h_hero_mode, hm⟩ := hm.popB
      obtain ⟨garrison_graphic, vs, rfl, h_garrison_graphic, hm⟩ := hm.popL
      obtain ⟨spawning_graphic, vs, rfl, h_spawning_graphic, hm⟩ := hm.popH
      obtain ⟨upgrade_graphic, vs, rfl, h_upgrade_graphic, hm⟩ := hm.popH
      obtain ⟨hero_glow_graphic, vs, rfl, h_hero_glow_graphic, hm⟩ := hm.popH
      obtain ⟨max_charge, vs, rfl, h_max_charge, hm⟩ := hm.popF
      obtain ⟨recharge_rate, vs, rfl, h_recharge_rate, hm⟩ := hm.popF
      obtain ⟨charge_event, vs, rfl, h_charge_event, hm⟩ := hm.popH
      obtain ⟨charge_type, vs, rfl, h_charge_type, hm⟩ := hm.popH
      obtain ⟨min_conversion_time_mod, vs, rfl, h_min_conversion_time_mod, hm⟩ := hm.popF
      obtain ⟨max_conversion_time_mod, vs, rfl, h_max_conversion_time_mod, hm⟩ := hm.popF
      obtain ⟨conversion_chance_mod, vs, rfl, h_conversion_chance_mod, hm⟩ := hm.popF
      obtain ⟨total_projectiles, vs, rfl, h_total_projectiles, hm⟩ := hm.popF
      obtain ⟨max_total_projectiles, vs, rfl, h_max_total_projectiles, hm⟩ := hm.popB
      obtain ⟨projectile_spawning_area_1, vs, rfl, h_projectile_spawning_area_1, hm⟩ := hm.popF
      obtain ⟨projectile_spawning_area_2, vs, rfl, h_projectile_spawning_area_2, hm⟩ := hm.popF
      obtain ⟨projectile_spawning_area_3, vs, rfl, h_projectile_spawning_area_3, hm⟩ := hm.popF
      obtain ⟨secondary_projectile_unit, vs, rfl, h_secondary_projectile_unit, hm⟩ := hm.popL
      obtain ⟨special_graphic, vs, rfl, h_special_graphic, hm⟩ := hm.popL
      obtain ⟨special_ability, vs, rfl, h_special_ability, hm⟩ := hm.popB
      obtain ⟨displayed_pierce_armour, vs, rfl, h_displayed_pierce_armour, hm⟩ := hm.popH
      obtain rfl := hm.done
      dsimp only [popInt, popFloat, popDone]
      refine Lax.pure trivial ?_
      intro b1 k1 b0 k0
      simp only [Creatable.layout, if_neg hv, if_neg hv4]
      rw [List.append_nil]; exact ReadAsM.append k0 (k1 _ (by decide))

theorem Task.lax (v : Version) :
    Lax v Task.fromBytes (fun _ => True) (fun x bs => ReadAsM (Task.layout v x) bs) := by
  unfold Task.fromBytes
  refine Lax.getVersion ?_
  by_cases hv : 88 ≤ v.num
  · have hg : v.ge .VER_88 = true := (ge_iff _ _).2 hv
    rw [if_pos hg]
    unfold Task.fromBytes88
    refine Lax.bind (Lax.unpack (cs := [.h, .h, .b, .h, .h, .h, .h, .h, .h, .h, .h, .f, .f, .f, .b, .f, .b, .b, .h, .h, .b, .b, .b, .h, .h, .h, .h, .h, .h, .l, .l, .h]) (by decide) (by decide)) fun vs hm => ?_
    obtain ⟨task_type, vs, rfl, h_task_type, hm⟩ := hm.popH
    obtain ⟨id, vs, rfl, h_id, hm⟩ := hm.popH
    obtain ⟨is_default, vs, rfl, h_is_default, hm⟩ := hm.popB
    obtain ⟨action_type, vs, rfl, h_action_type, hm⟩ := hm.popH
    obtain ⟨class_id, vs, rfl, h_class_id, hm⟩ := hm.popH
    obtain ⟨unit_id, vs, rfl, h_unit_id, hm⟩ := hm.popH
    obtain ⟨terrain_id, vs, rfl, h_terrain_id, hm⟩ := hm.popH
    obtain ⟨resource_in, vs, rfl, h_resource_in, hm⟩ := hm.popH
    obtain ⟨resource_multiplier, vs, rfl, h_resource_multiplier, hm⟩ := hm.popH
    obtain ⟨resource_out, vs, rfl, h_resource_out, hm⟩ := hm.popH
    obtain ⟨unused_resource, vs, rfl, h_unused_resource, hm⟩ := hm.popH
    obtain ⟨work_value_1, vs, rfl, h_work_value_1, hm⟩ := hm.popF
    obtain ⟨work_value_2, vs, rfl, h_work_value_2, hm⟩ := hm.popF
    obtain ⟨work_range, vs, rfl, h_work_range, hm⟩ := hm.popF
    obtain ⟨auto_search_targets, vs, rfl, h_auto_search_targets, hm⟩ := hm.popB
    obtain ⟨search_wait_time, vs, rfl, h_search_wait_time, hm⟩ := hm.popF
    obtain ⟨enable_targeting, vs, rfl, h_enable_targeting, hm⟩ := hm.popB
    obtain ⟨combat_level_flag, vs, rfl, h_combat_level_flag, hm⟩ := hm.popB
    obtain ⟨gather_type, vs, rfl, h_gather_type, hm⟩ := hm.popH
    obtain ⟨work_flag_2, vs, rfl, h_work_flag_2, hm⟩ := hm.popH
    obtain ⟨target_diplomacy, vs, rfl, h_target_diplomacy, hm⟩ := hm.popB
    obtain ⟨carry_check, vs, rfl, h_carry_check, hm⟩ := hm.popB
    obtain ⟨pick_for_construction, vs, rfl, h_pick_for_construction, hm⟩ := hm.popB
    obtain ⟨moving_graphic_id, vs, rfl, h_moving_graphic_id, hm⟩ := hm.popH
    obtain ⟨proceeding_graphic_id, vs, rfl, h_proceeding_graphic_id, hm⟩ := hm.popH
    obtain ⟨working_graphic_id, vs, rfl, h_working_graphic_id, hm⟩ := hm.popH
    obtain ⟨carrying_graphic_id, vs, rfl, h_carrying_graphic_id, hm⟩ := hm.popH
    obtain ⟨resource_gathering_sound_id, vs, rfl, h_resource_gathering_sound_id, hm⟩ := hm.popH
    obtain ⟨resource_deposit_sound_id, vs, rfl, h_resource_deposit_sound_id, hm⟩ := hm.popH
    obtain ⟨wwise_resource_gathering_sound_id, vs, rfl, h_wwise_resource_gathering_sound_id, hm⟩ := hm.popL
    obtain ⟨wwise_resource_deposit_sound_id, vs, rfl, h_wwise_resource_deposit_sound_id, hm⟩ := hm.popL
    obtain ⟨enabled, vs, rfl, h_enabled, hm⟩ := hm.popH
    obtain rfl := hm.done
    dsimp only [popInt, popFloat, popDone]
    refine Lax.pure trivial ?_
    intro b0 k0
    simp only [Task.layout, if_pos hv]
    rw [List.append_nil]; exact (k0 _ (by decide))
  · have hg : ¬ v.ge .VER_88 = true := fun k => hv ((ge_iff _ _).1 k)
    rw [if_neg hg]
    unfold Task.fromBytes84
    refine Lax.bind (Lax.unpack (cs := [.h, .h, .b, .h, .h, .h, .h, .h, .h, .h, .h, .f, .f, .f, .b, .f, .b, .b, .h, .h, .b, .b, .b, .h, .h, .h, .h, .h, .h, .l, .l]) (by decide) (by decide)) fun vs hm => ?_
    obtain ⟨task_type, vs, rfl, h_task_type, hm⟩ := hm.popH
    obtain ⟨id, vs, rfl, h_id, hm⟩ := hm.popH
    obtain ⟨is_default, vs, rfl, h_is_default, hm⟩ := hm.popB
    obtain ⟨action_type, vs, rfl, h_action_type, hm⟩ := hm.popH
    obtain ⟨class_id, vs, rfl, h_class_id, hm⟩ := hm.popH
    obtain ⟨unit_id, vs, rfl, h_unit_id, hm⟩ := hm.popH
    obtain ⟨terrain_id, vs, rfl, h_terrain_id, hm⟩ := hm.popH
    obtain ⟨resource_in, vs, rfl, h_resource_in, hm⟩ := hm.popH
    obtain ⟨resource_multiplier, vs, rfl, h_resource_multiplier, hm⟩ := hm.popH
    obtain ⟨resource_out, vs, rfl, h_resource_out, hm⟩ := hm.popH
    obtain ⟨unused_resource, vs, rfl, h_unused_resource, hm⟩ := hm.popH
    obtain ⟨work_value_1, vs, rfl, h_work_value_1, hm⟩ := hm.popF
    obtain ⟨work_value_2, vs, rfl, h_work_value_2, hm⟩ := hm.popF
    obtain ⟨work_range, vs, rfl, h_work_range, hm⟩ := hm.popF
    obtain ⟨auto_search_targets, vs, rfl, h_auto_search_targets, hm⟩ := hm.popB
    obtain ⟨search_wait_time, vs, rfl, h_search_wait_time, hm⟩ := hm.popF
    obtain ⟨enable_targeting, vs, rfl, h_enable_targeting, hm⟩ := hm.popB
    obtain ⟨combat_level_flag, vs, rfl, h_combat_level_flag, hm⟩ := hm.popB
    obtain ⟨gather_type, vs, rfl, h_gather_type, hm⟩ := hm.popH
    obtain ⟨work_flag_2, vs, rfl, h_work_flag_2, hm⟩ := hm.popH
    obtain ⟨target_diplomacy, vs, rfl, h_target_diplomacy, hm⟩ := hm.popB
    obtain ⟨carry_check, vs, rfl, h_carry_check, hm⟩ := hm.popB
    obtain ⟨pick_for_construction, vs, rfl, h_pick_for_construction, hm⟩ := hm.popB
    obtain ⟨moving_graphic_id, vs, rfl, h_moving_graphic_id, hm⟩ := hm.popH
    obtain ⟨proceeding_graphic_id, vs, rfl, h_proceeding_graphic_id, hm⟩ := hm.popH
    obtain ⟨working_graphic_id, vs, rfl, h_working_graphic_id, hm⟩ := hm.popH
    obtain ⟨carrying_graphic_id, vs, rfl, h_carrying_graphic_id, hm⟩ := hm.popH
    obtain ⟨resource_gathering_sound_id, vs, rfl, h_resource_gathering_sound_id, hm⟩ := hm.popH
    obtain ⟨resource_deposit_sound_id, vs, rfl, h_resource_deposit_sound_id, hm⟩ := hm.popH
    obtain ⟨wwise_resource_gathering_sound_id, vs, rfl, h_wwise_resource_gathering_sound_id, hm⟩ := hm.popL
    obtain ⟨wwise_resource_deposit_sound_id, vs, rfl, h_wwise_resource_deposit_sound_id, hm⟩ := hm.popL
    obtain rfl := hm.done
    dsimp only [popInt, popFloat, popDone]
    refine Lax.pure trivial ?_
    intro b0 k0
    simp only [Task.layout, if_neg hv, List.append_nil]
    exact (k0 _ (by decide))

theorem UnitHeaders.lax (v : Version) :
    Lax v UnitHeaders.fromBytes (fun _ => True) (fun x bs => ReadAsM (UnitHeaders.layout v x) bs) := by
  unfold UnitHeaders.fromBytes
  refine Lax.bind Lax.int8 fun exists_ h1 => ?_
  by_cases he : exists_ ≠ 0
  · rw [if_pos he]
    refine Lax.bind Lax.int16 fun n h2 => ?_
    refine Lax.bind (Lax.classArray _ (Task.lax v)) fun l h3 => ?_
    refine Lax.pure trivial ?_
    intro b2 k2 b1 k1 b0 k0
    simp only [UnitHeaders.layout, Layout.part, if_pos he, List.append_nil]
    exact ReadAsM.append k0.int (ReadAsM.append (k1.count h3) k2)
  · rw [if_neg he]
    refine Lax.pure trivial ?_
    intro b0 k0
    simp only [UnitHeaders.layout, Layout.part, if_neg he]
    exact ReadAsM.append k0.int ReadAsM.nil

theorem Tech.lax (v : Version) :
    Lax v Tech.fromBytes (fun _ => True) (fun x bs => ReadAsM (Tech.layout v x) bs) := by
  unfold Tech.fromBytes
  refine Lax.getVersion ?_
  by_cases hv : 88 ≤ v.num
  · have hg : v.ge .VER_88 = true := (ge_iff _ _).2 hv
    rw [if_pos hg]
    unfold Tech.fromBytes88
    refine Lax.bind (Lax.int16Array6) fun required_techs h_required_techs => ?_
    refine Lax.bind (Lax.classArray3 (ResearchResourceCost.lax v)) fun resource_costs h_resource_costs => ?_
    refine Lax.bind (Lax.int16) fun required_tech_count h_required_tech_count => ?_
    refine Lax.bind (Lax.int16) fun civ h_civ => ?_
    refine Lax.bind (Lax.int16) fun full_tech_mode h_full_tech_mode => ?_
    refine Lax.bind (Lax.int32) fun language_dll_name h_language_dll_name => ?_
    refine Lax.bind (Lax.int32) fun language_dll_description h_language_dll_description => ?_
    refine Lax.bind (Lax.int16) fun effect_id h_effect_id => ?_
    refine Lax.bind (Lax.int16) fun type h_type => ?_
    refine Lax.bind (Lax.int16) fun icon_id h_icon_id => ?_
    refine Lax.bind (Lax.int32) fun language_dll_help h_language_dll_help => ?_
    refine Lax.bind (Lax.int32) fun language_dll_tech_tree h_language_dll_tech_tree => ?_
    refine Lax.bind (Lax.debugString) fun name h_name => ?_
    refine Lax.bind (Lax.int8) fun repeatable h_repeatable => ?_
    refine Lax.bind (Lax.int16) fun research_location_count h_research_location_count => ?_
    refine Lax.bind (Lax.classArray _ (ResearchLocation.lax v)) fun research_locations h_research_locations => ?_
    refine Lax.pure trivial ?_
    intro b15 k15 b14 k14 b13 k13 b12 k12 b11 k11 b10 k10 b9 k9 b8 k8 b7 k7 b6 k6 b5 k5 b4 k4 b3 k3 b2 k2 b1 k1 b0 k0
    simp only [Tech.layout, if_pos hv]
    exact ReadAsM.cons k0 (.cons k1 (.cons (by first | exact k2.int | exact k2.count (by assumption)) (.cons (by first | exact k3.int | exact k3.count (by assumption)) (.cons (by first | exact k4.int | exact k4.count (by assumption)) (.cons (by first | exact k5.int | exact k5.count (by assumption)) (.cons (by first | exact k6.int | exact k6.count (by assumption)) (.cons (by first | exact k7.int | exact k7.count (by assumption)) (.cons (by first | exact k8.int | exact k8.count (by assumption)) (.cons (by first | exact k9.int | exact k9.count (by assumption)) (.cons (by first | exact k10.int | exact k10.count (by assumption)) (.cons (by first | exact k11.int | exact k11.count (by assumption)) (.cons k12 (.cons (by first | exact k13.int | exact k13.count (by assumption)) (.cons (by first | exact k14.int | exact k14.count (by assumption)) (.cons k15 ReadAsM.nil)))))))))))))))
  · have hg := not_ge (w := .VER_88) hv
    rw [if_neg hg]
    unfold Tech.fromBytes84
    refine Lax.bind (Lax.int16Array6) fun required_techs h_required_techs => ?_
    refine Lax.bind (Lax.classArray3 (ResearchResourceCost.lax v)) fun resource_costs h_resource_costs => ?_
    refine Lax.bind (Lax.int16) fun required_tech_count h_required_tech_count => ?_
    refine Lax.bind (Lax.int16) fun civ h_civ => ?_
    refine Lax.bind (Lax.int16) fun full_tech_mode h_full_tech_mode => ?_
    refine Lax.bind (Lax.int16) fun research_location h_research_location => ?_
    refine Lax.bind (Lax.int32) fun language_dll_name h_language_dll_name => ?_
    refine Lax.bind (Lax.int32) fun language_dll_description h_language_dll_description => ?_
    refine Lax.bind (Lax.int16) fun research_time h_research_time => ?_
    refine Lax.bind (Lax.int16) fun effect_id h_effect_id => ?_
    refine Lax.bind (Lax.int16) fun type h_type => ?_
    refine Lax.bind (Lax.int16) fun icon_id h_icon_id => ?_
    refine Lax.bind (Lax.int8) fun button_id h_button_id => ?_
    refine Lax.bind (Lax.int32) fun language_dll_help h_language_dll_help => ?_
    refine Lax.bind (Lax.int32) fun language_dll_tech_tree h_language_dll_tech_tree => ?_
    refine Lax.bind (Lax.int32) fun hot_key h_hot_key => ?_
    refine Lax.bind (Lax.debugString) fun name h_name => ?_
    refine Lax.bind (Lax.int8) fun repeatable h_repeatable => ?_
    refine Lax.pure trivial ?_
    intro b17 k17 b16 k16 b15 k15 b14 k14 b13 k13 b12 k12 b11 k11 b10 k10 b9 k9 b8 k8 b7 k7 b6 k6 b5 k5 b4 k4 b3 k3 b2 k2 b1 k1 b0 k0
    simp only [Tech.layout, if_neg hv]
    exact ReadAsM.cons k0 (.cons k1 (.cons (by first | exact k2.int | exact k2.count (by assumption)) (.cons (by first | exact k3.int | exact k3.count (by assumption)) (.cons (by first | exact k4.int | exact k4.count (by assumption)) (.cons (by first | exact k5.int | exact k5.count (by assumption)) (.cons (by first | exact k6.int | exact k6.count (by assumption)) (.cons (by first | exact k7.int | exact k7.count (by assumption)) (.cons (by first | exact k8.int | exact k8.count (by assumption)) (.cons (by first | exact k9.int | exact k9.count (by assumption)) (.cons (by first | exact k10.int | exact k10.count (by assumption)) (.cons (by first | exact k11.int | exact k11.count (by assumption)) (.cons (by first | exact k12.int | exact k12.count (by assumption)) (.cons (by first | exact k13.int | exact k13.count (by assumption)) (.cons (by first | exact k14.int | exact k14.count (by assumption)) (.cons (by first | exact k15.int | exact k15.count (by assumption)) (.cons k16 (.cons (by first | exact k17.int | exact k17.count (by assumption)) ReadAsM.nil)))))))))))))))))

theorem Type50.lax (v : Version) :
    Lax v Type50.fromBytes (fun _ => True) (fun x bs => ReadAsM (Type50.layout v x) bs) := by
  unfold Type50.fromBytes
  refine Lax.bind Lax.int16 fun base_armor h_base_armor => ?_
  refine Lax.bind Lax.int16 fun attack_count h_attack_count => ?_
  refine Lax.bind (Lax.classArray _ (AttackOrArmor.lax v)) fun attacks h_attacks => ?_
  refine Lax.bind Lax.int16 fun armour_count h_armour_count => ?_
  refine Lax.bind (Lax.classArray _ (AttackOrArmor.lax v)) fun armours h_armours => ?_
  refine Lax.bind Lax.int16 fun defense_terrain_bonus h_defense_terrain_bonus => ?_
  refine Lax.bind Lax.float fun bonus_damage_resistance h_bonus_damage_resistance => ?_
  refine Lax.bind Lax.float fun max_range h_max_range => ?_
  refine Lax.bind Lax.float fun blast_width h_blast_width => ?_
  refine Lax.bind Lax.float fun reload_time h_reload_time => ?_
  refine Lax.bind Lax.int16 fun projectile_unit_id h_projectile_unit_id => ?_
  refine Lax.bind Lax.int16 fun accuracy_percent h_accuracy_percent => ?_
  refine Lax.bind Lax.int8 fun break_off_combat h_break_off_combat => ?_
  refine Lax.bind Lax.int16 fun frame_delay h_frame_delay => ?_
  refine Lax.bind Lax.floatArray3 fun graphic_displacement h_graphic_displacement => ?_
  refine Lax.bind Lax.int8 fun blast_attack_level h_blast_attack_level => ?_
  refine Lax.bind Lax.float fun min_range h_min_range => ?_
  refine Lax.bind Lax.float fun accuracy_dispersion h_accuracy_dispersion => ?_
  refine Lax.bind Lax.int16 fun attack_graphic h_attack_graphic => ?_
  refine Lax.bind Lax.int16 fun displayed_melee_armour h_displayed_melee_armour => ?_
  refine Lax.bind Lax.int16 fun displayed_attack h_displayed_attack => ?_
  refine Lax.bind Lax.float fun displayed_range h_displayed_range => ?_
  refine Lax.bind Lax.float fun displayed_reload_time h_displayed_reload_time => ?_
  refine Lax.bind Lax.float fun blast_damage h_blast_damage => ?_
  refine Lax.getVersion ?_
  by_cases hv : 84 ≤ v.num
  · have hg : v.ge .VER_84 = true := (ge_iff _ _).2 hv
    simp only [readOr, hg, if_true]
    refine Lax.bind Lax.float fun damage_reflection h_damage_reflection => ?_
    refine Lax.bind Lax.float fun friendly_fire_damage h_friendly_fire_damage => ?_
    refine Lax.bind Lax.int16 fun interrupt_frame h_interrupt_frame => ?_
    refine Lax.bind Lax.float fun garrison_firepower h_garrison_firepower => ?_
    refine Lax.bind Lax.int16 fun attack_graphic_2 h_attack_graphic_2 => ?_
    refine Lax.pure trivial ?_
    intro b28 k28 b27 k27 b26 k26 b25 k25 b24 k24 b23 k23 b22 k22 b21 k21 b20 k20 b19 k19 b18 k18 b17 k17 b16 k16 b15 k15 b14 k14 b13 k13 b12 k12 b11 k11 b10 k10 b9 k9 b8 k8 b7 k7 b6 k6 b5 k5 b4 k4 b3 k3 b2 k2 b1 k1 b0 k0
    simp only [Type50.layout, Layout.since, if_pos hv]
    exact ReadAsM.cons (by first | exact k0.int | exact k0.count (by assumption)) (.cons (by first | exact k1.int | exact k1.count (by assumption)) (.cons k2 (.cons (by first | exact k3.int | exact k3.count (by assumption)) (.cons k4 (.cons (by first | exact k5.int | exact k5.count (by assumption)) (.cons k6 (.cons k7 (.cons k8 (.cons k9 (.cons (by first | exact k10.int | exact k10.count (by assumption)) (.cons (by first | exact k11.int | exact k11.count (by assumption)) (.cons (by first | exact k12.int | exact k12.count (by assumption)) (.cons (by first | exact k13.int | exact k13.count (by assumption)) (.cons k14 (.cons (by first | exact k15.int | exact k15.count (by assumption)) (.cons k16 (.cons k17 (.cons (by first | exact k18.int | exact k18.count (by assumption)) (.cons (by first | exact k19.int | exact k19.count (by assumption)) (.cons (by first | exact k20.int | exact k20.count (by assumption)) (.cons k21 (.cons k22 (.cons k23 (ReadAsM.last (ReadAsM.cons k24 (.cons k25 (.cons (by first | exact k26.int | exact k26.count (by assumption)) (.cons k27 (.cons (by first | exact k28.int | exact k28.count (by assumption)) ReadAsM.nil)))))))))))))))))))))))))))))
  · have hg : v.ge .VER_84 = false := by
      cases hh : v.ge .VER_84
      · rfl
      · exact absurd ((ge_iff _ _).1 hh) hv
    simp only [readOr, hg, Bool.false_eq_true, if_false]
    refine Lax.bind0 Lax.pureEq fun _ _ => ?_
    refine Lax.bind0 Lax.pureEq fun _ _ => ?_
    refine Lax.bind0 Lax.pureEq fun _ _ => ?_
    refine Lax.bind0 Lax.pureEq fun _ _ => ?_
    refine Lax.bind0 Lax.pureEq fun _ _ => ?_
    refine Lax.pure trivial ?_
    intro b23 k23 b22 k22 b21 k21 b20 k20 b19 k19 b18 k18 b17 k17 b16 k16 b15 k15 b14 k14 b13 k13 b12 k12 b11 k11 b10 k10 b9 k9 b8 k8 b7 k7 b6 k6 b5 k5 b4 k4 b3 k3 b2 k2 b1 k1 b0 k0
    simp only [Type50.layout, Layout.since, if_neg hv]
    exact ReadAsM.cons (by first | exact k0.int | exact k0.count (by assumption)) (.cons (by first | exact k1.int | exact k1.count (by assumption)) (.cons k2 (.cons (by first | exact k3.int | exact k3.count (by assumption)) (.cons k4 (.cons (by first | exact k5.int | exact k5.count (by assumption)) (.cons k6 (.cons k7 (.cons k8 (.cons k9 (.cons (by first | exact k10.int | exact k10.count (by assumption)) (.cons (by first | exact k11.int | exact k11.count (by assumption)) (.cons (by first | exact k12.int | exact k12.count (by assumption)) (.cons (by first | exact k13.int | exact k13.count (by assumption)) (.cons k14 (.cons (by first | exact k15.int | exact k15.count (by assumption)) (.cons k16 (.cons k17 (.cons (by first | exact k18.int | exact k18.count (by assumption)) (.cons (by first | exact k19.int | exact k19.count (by assumption)) (.cons (by first | exact k20.int | exact k20.count (by assumption)) (.cons k21 (.cons k22 (.cons k23 (ReadAsM.last ReadAsM.nil))))))))))))))))))))))))

theorem Bird.lax (v : Version) :
    Lax v Bird.fromBytes (fun _ => True) (fun x bs => ReadAsM (Bird.layout v x) bs) := by
  unfold Bird.fromBytes
  refine Lax.bind Lax.int16 fun default_task_id h_default_task_id => ?_
  refine Lax.bind Lax.float fun search_radius h_search_radius => ?_
  refine Lax.bind Lax.float fun work_rate h_work_rate => ?_
  refine Lax.getVersion ?_
  refine Lax.bind (Q := fun _ => True)
    (P := fun n bs => ∀ l : List Int, l.length = n.toNat → ReadAsM (Layout.since v 78 (Layout.countI16 l)) bs) ?_ fun n _ => ?_
  · by_cases hv : 78 ≤ v.num
    · have hg : v.gt .VER_77 = true := (gt_iff _ _).2 hv
      rw [readOr, if_pos hg]
      simp only [Layout.since, if_pos hv]
      exact Lax.mono Lax.int16 (fun _ _ => trivial) fun n bs _ h l hl => h.count hl
    · have hg : ¬ v.gt .VER_77 = true := fun k => hv ((gt_iff _ _).1 k)
      rw [readOr, if_neg hg]
      simp only [Layout.since, if_neg hv]
      exact Lax.pure trivial fun _ _ => ReadAsM.nil
  refine Lax.bind (Lax.int16Array _) fun drop_sites h_drop_sites => ?_
  refine Lax.bind Lax.int8 fun task_swap_group h_task_swap_group => ?_
  refine Lax.bind Lax.int16 fun attack_sound h_attack_sound => ?_
  refine Lax.bind Lax.int16 fun move_sound h_move_sound => ?_
  refine Lax.bind Lax.int32 fun wwise_attack_sound_id h_wwise_attack_sound_id => ?_
  refine Lax.bind Lax.int32 fun wwise_move_sound_id h_wwise_move_sound_id => ?_
  refine Lax.bind Lax.int8 fun run_pattern h_run_pattern => ?_
  refine Lax.bind Lax.int16 fun task_size h_task_size => ?_
  refine Lax.bind (Lax.classArray _ (Task.lax v)) fun tasks h_tasks => ?_
  refine Lax.pure trivial ?_
  intro b12 k12 b11 k11 b10 k10 b9 k9 b8 k8 b7 k7 b6 k6 b5 k5 b4 k4 b3 k3 b2 k2 b1 k1 b0 k0
  unfold Bird.layout
  exact ReadAsM.cons (by first | exact k0.int | exact k0.count (by assumption)) (.cons k1 (.cons k2 (.cons (by first | exact k3 _ h_drop_sites) (.cons k4 (.cons (by first | exact k5.int | exact k5.count (by assumption)) (.cons (by first | exact k6.int | exact k6.count (by assumption)) (.cons (by first | exact k7.int | exact k7.count (by assumption)) (.cons (by first | exact k8.int | exact k8.count (by assumption)) (.cons (by first | exact k9.int | exact k9.count (by assumption)) (.cons (by first | exact k10.int | exact k10.count (by assumption)) (.cons (by first | exact k11.int | exact k11.count (by assumption)) (.cons k12 ReadAsM.nil))))))))))))

theorem Creatable.layout_withHotKey {v : Version} (hv : ¬ 88 ≤ v.num) (k : Int) {x : Creatable} (h : x.train_locations ≠ []) :
    (x.withHotKey k).layout v = x.layout v := by
  unfold Creatable.withHotKey Creatable.layout
  cases hl : x.train_locations with
  | nil => exact absurd hl h
  | cons t ts => simp only [if_neg hv]

theorem Unit.lax (v : Version) :
    Lax v Unit.fromBytes (fun _ => True) (fun x bs => ReadAsM (Unit.layout v x) bs) := by
  unfold Unit.fromBytes
  refine Lax.getVersion ?_
  by_cases hv : 88 ≤ v.num
  · have hg : v.ge .VER_88 = true := (ge_iff _ _).2 hv
    rw [if_pos hg]
    unfold Unit.fromBytes88
    refine Lax.bind (Lax.unpack (cs := [Code.b, Code.h, Code.l, Code.l, Code.h, Code.h, Code.h, Code.h, Code.h, Code.b, Code.h, Code.f, Code.b, Code.f, Code.f, Code.f, Code.h, Code.h, Code.h, Code.h, Code.b, Code.b, Code.h, Code.b, Code.h, Code.b, Code.b, Code.h, Code.h, Code.h, Code.h, Code.f, Code.f, Code.b, Code.b, Code.h, Code.b, Code.h, Code.f, Code.b, Code.b, Code.b, Code.b, Code.b, Code.f, Code.b, Code.l, Code.l, Code.b, Code.b, Code.b, Code.b, Code.b, Code.b, Code.b, Code.b, Code.b, Code.h, Code.b, Code.b, Code.f, Code.f, Code.f, Code.l, Code.l]) (by decide) (by decide)) fun vs hm => ?_
    obtain ⟨type_, vs, rfl, h_type_, hm⟩ := hm.popB
    obtain ⟨id_, vs, rfl, h_id_, hm⟩ := hm.popH
    obtain ⟨language_dll_name, vs, rfl, h_language_dll_name, hm⟩ := hm.popL
    obtain ⟨language_dll_creation, vs, rfl, h_language_dll_creation, hm⟩ := hm.popL
    obtain ⟨class_, vs, rfl, h_class_, hm⟩ := hm.popH
    obtain ⟨standing_graphic_1, vs, rfl, h_standing_graphic_1, hm⟩ := hm.popH
    obtain ⟨standing_graphic_2, vs, rfl, h_standing_graphic_2, hm⟩ := hm.popH
    obtain ⟨dying_graphic, vs, rfl, h_dying_graphic, hm⟩ := hm.popH
    obtain ⟨undead_graphic, vs, rfl, h_undead_graphic, hm⟩ := hm.popH
    obtain ⟨undead_mode, vs, rfl, h_undead_mode, hm⟩ := hm.popB
    obtain ⟨hit_points, vs, rfl, h_hit_points, hm⟩ := hm.popH
    obtain ⟨line_of_sight, vs, rfl, h_line_of_sight, hm⟩ := hm.popF
    obtain ⟨garrison_capacity, vs, rfl, h_garrison_capacity, hm⟩ := hm.popB
    obtain ⟨collision_size_x, vs, rfl, h_collision_size_x, hm⟩ := hm.popF
    obtain ⟨collision_size_y, vs, rfl, h_collision_size_y, hm⟩ := hm.popF
    obtain ⟨collision_size_z, vs, rfl, h_collision_size_z, hm⟩ := hm.popF
    obtain ⟨train_sound, vs, rfl, h_train_sound, hm⟩ := hm.popH
    obtain ⟨damage_sound, vs, rfl, h_damage_sound, hm⟩ := hm.popH
    obtain ⟨dead_unit_id, vs, rfl, h_dead_unit_id, hm⟩ := hm.popH
    obtain ⟨blood_unit_id, vs, rfl, h_blood_unit_id, hm⟩ := hm.popH
    obtain ⟨sort_number, vs, rfl, h_sort_number, hm⟩ := hm.popB
    obtain ⟨can_be_built_on, vs, rfl, h_can_be_built_on, hm⟩ := hm.popB
    obtain ⟨icon_id, vs, rfl, h_icon_id, hm⟩ := hm.popH
    obtain ⟨hide_in_editor, vs, rfl, h_hide_in_editor, hm⟩ := hm.popB
    obtain ⟨old_portrait_pict, vs, rfl, h_old_portrait_pict, hm⟩ := hm.popH
    obtain ⟨enabled, vs, rfl, h_enabled, hm⟩ := hm.popB
    obtain ⟨disabled, vs, rfl, h_disabled, hm⟩ := hm.popB
    obtain ⟨placement_side_terrain_1, vs, rfl, h_placement_side_terrain_1, hm⟩ := hm.popH
    obtain ⟨placement_side_terrain_2, vs, rfl, h_placement_side_terrain_2, hm⟩ := hm.popH
    obtain ⟨placement_terrain_1, vs, rfl, h_placement_terrain_1, hm⟩ := hm.popH
    obtain ⟨placement_terrain_2, vs, rfl, h_placement_terrain_2, hm⟩ := hm.popH
    obtain ⟨clearance_size_1, vs, rfl, h_clearance_size_1, hm⟩ := hm.popF
    obtain ⟨clearance_size_2, vs, rfl, h_clearance_size_2, hm⟩ := hm.popF
    obtain ⟨hill_mode, vs, rfl, h_hill_mode, hm⟩ := hm.popB
    obtain ⟨fog_visibility, vs, rfl, h_fog_visibility, hm⟩ := hm.popB
    obtain ⟨terrain_restriction, vs, rfl, h_terrain_restriction, hm⟩ := hm.popH
    obtain ⟨fly_mode, vs, rfl, h_fly_mode, hm⟩ := hm.popB
    obtain ⟨resource_capacity, vs, rfl, h_resource_capacity, hm⟩ := hm.popH
    obtain ⟨resource_decay, vs, rfl, h_resource_decay, hm⟩ := hm.popF
    obtain ⟨blast_defense_level, vs, rfl, h_blast_defense_level, hm⟩ := hm.popB
    obtain ⟨combat_level, vs, rfl, h_combat_level, hm⟩ := hm.popB
    obtain ⟨interaction_mode, vs, rfl, h_interaction_mode, hm⟩ := hm.popB
    obtain ⟨minimap_mode, vs, rfl, h_minimap_mode, hm⟩ := hm.popB
    obtain ⟨interface_kind, vs, rfl, h_interface_kind, hm⟩ := hm.popB
    obtain ⟨multiple_attribute_mode, vs, rfl, h_multiple_attribute_mode, hm⟩ := hm.popF
    obtain ⟨minimap_color, vs, rfl, h_minimap_color, hm⟩ := hm.popB
    obtain ⟨language_dll_help, vs, rfl, h_language_dll_help, hm⟩ := hm.popL
    obtain ⟨language_dll_hotkey_text, vs, rfl, h_language_dll_hotkey_text, hm⟩ := hm.popL
    obtain ⟨recyclable, vs, rfl, h_recyclable, hm⟩ := hm.popB
    obtain ⟨enable_auto_gather, vs, rfl, h_enable_auto_gather, hm⟩ := hm.popB
    obtain ⟨create_doppelganger_on_death, vs, rfl, h_create_doppelganger_on_death, hm⟩ := hm.popB
    obtain ⟨resource_gather_group, vs, rfl, h_resource_gather_group, hm⟩ := hm.popB
    obtain ⟨occlusion_mode, vs, rfl, h_occlusion_mode, hm⟩ := hm.popB
    obtain ⟨obstruction_type, vs, rfl, h_obstruction_type, hm⟩ := hm.popB
    obtain ⟨obstruction_class, vs, rfl, h_obstruction_class, hm⟩ := hm.popB
    obtain ⟨trait, vs, rfl, h_trait, hm⟩ := hm.popB
    obtain ⟨civilization, vs, rfl, h_civilization, hm⟩ := hm.popB
    obtain ⟨nothing, vs, rfl, h_nothing, hm⟩ := hm.popH
    obtain ⟨selection_effect, vs, rfl, h_selection_effect, hm⟩ := hm.popB
    obtain ⟨editor_selection_colour, vs, rfl, h_editor_selection_colour, hm⟩ := hm.popB
    obtain ⟨outline_size_x, vs, rfl, h_outline_size_x, hm⟩ := hm.popF
    obtain ⟨outline_size_y, vs, rfl, h_outline_size_y, hm⟩ := hm.popF
    obtain ⟨outline_size_z, vs, rfl, h_outline_size_z, hm⟩ := hm.popF
    obtain ⟨scenario_triggers_1, vs, rfl, h_scenario_triggers_1, hm⟩ := hm.popL
    obtain ⟨scenario_triggers_2, vs, rfl, h_scenario_triggers_2, hm⟩ := hm.popL
    obtain rfl := hm.done
    dsimp only [popInt, popFloat, popDone]
    refine Lax.bind (Lax.classArray3 (ResourceStorage.lax v)) fun resource_storages h_resource_storages => ?_
    refine Lax.bind Lax.int8 fun damage_graphic_size h_damage_graphic_size => ?_
    refine Lax.bind (Lax.classArray _ (DamageGraphic.lax v)) fun damage_graphics h_damage_graphics => ?_
    refine Lax.bind Lax.int16 fun selection_sound h_selection_sound => ?_
    refine Lax.bind Lax.int16 fun dying_sound h_dying_sound => ?_
    refine Lax.bind Lax.int32 fun wwise_train_sound_id h_wwise_train_sound_id => ?_
    refine Lax.bind Lax.int32 fun wwise_damage_sound_id h_wwise_damage_sound_id => ?_
    refine Lax.bind Lax.int32 fun wwise_selection_sound_id h_wwise_selection_sound_id => ?_
    refine Lax.bind Lax.int32 fun wwise_dying_sound_id h_wwise_dying_sound_id => ?_
    refine Lax.bind Lax.int8 fun old_attack_reaction h_old_attack_reaction => ?_
    refine Lax.bind Lax.int8 fun convert_terrain h_convert_terrain => ?_
    refine Lax.bind Lax.debugString fun name h_name => ?_
    refine Lax.bind Lax.int16 fun copy_id h_copy_id => ?_
    refine Lax.bind Lax.int16 fun base_id h_base_id => ?_
    refine Lax.bind (Lax.readIf Lax.float) fun speed h_speed => ?_
    refine Lax.bind (Lax.readIf (Lax.class_ (DeadFish.lax v))) fun dead_fish h_dead_fish => ?_
    refine Lax.bind (Lax.readIf (Lax.class_ (Bird.lax v))) fun bird h_bird => ?_
    refine Lax.bind (Lax.readIf (Lax.class_ (Type50.lax v))) fun type_50 h_type_50 => ?_
    refine Lax.bind (Lax.readIf (Lax.class_ (Projectile.lax v))) fun projectile h_projectile => ?_
    refine Lax.bind (Lax.readIf (Lax.class_ (Creatable.lax v))) fun creatable h_creatable => ?_
    refine Lax.bind (Lax.readIf (Lax.class_ (Building.lax v))) fun building h_building => ?_
    refine Lax.pure trivial ?_
    intro b21 k21 b20 k20 b19 k19 b18 k18 b17 k17 b16 k16 b15 k15 b14 k14 b13 k13 b12 k12 b11 k11 b10 k10 b9 k9 b8 k8 b7 k7 b6 k6 b5 k5 b4 k4 b3 k3 b2 k2 b1 k1 b0 k0
    simp only [Unit.layout, if_pos hv]
    exact ReadAsM.cons (k0 _ (by decide)) (.cons k1 (.cons (by first | exact k2.int | exact k2.count (by assumption)) (.cons k3 (.cons (by first | exact k4.int | exact k4.count (by assumption)) (.cons (by first | exact k5.int | exact k5.count (by assumption)) (.cons (by first | exact k6.int | exact k6.count (by assumption)) (.cons (by first | exact k7.int | exact k7.count (by assumption)) (.cons (by first | exact k8.int | exact k8.count (by assumption)) (.cons (by first | exact k9.int | exact k9.count (by assumption)) (.cons (by first | exact k10.int | exact k10.count (by assumption)) (.cons (by first | exact k11.int | exact k11.count (by assumption)) (.cons k12 (.cons (by first | exact k13.int | exact k13.count (by assumption)) (.cons (by first | exact k14.int | exact k14.count (by assumption)) (.cons (k15.partIff (has_speed _)) (.cons (k16.partIff (has_dead_fish _)) (.cons (k17.partIff (has_bird _)) (.cons (k18.partIff (has_type_50 _)) (.cons (k19.partIff (has_projectile _)) (.cons (k20.partIff (has_creatable _)) (.cons (k21.partIff (has_building _)) ReadAsM.nil)))))))))))))))))))))
  · have hg := not_ge (w := .VER_88) hv
    rw [if_neg hg]
    unfold Unit.fromBytes84
    refine Lax.bind (Lax.unpack (cs := [Code.b, Code.h, Code.l, Code.l, Code.h, Code.h, Code.h, Code.h, Code.h, Code.b, Code.h, Code.f, Code.b, Code.f, Code.f, Code.f, Code.h, Code.h, Code.h, Code.h, Code.b, Code.b, Code.h, Code.b, Code.h, Code.b, Code.b, Code.h, Code.h, Code.h, Code.h, Code.f, Code.f, Code.b, Code.b, Code.h, Code.b, Code.h, Code.f, Code.b, Code.b, Code.b, Code.b, Code.b, Code.f, Code.b, Code.l, Code.l, Code.l, Code.b, Code.b, Code.b, Code.b, Code.b, Code.b, Code.b, Code.b, Code.b, Code.h, Code.b, Code.b, Code.f, Code.f, Code.f, Code.l, Code.l]) (by decide) (by decide)) fun vs hm => ?_
    obtain ⟨type_, vs, rfl, h_type_, hm⟩ := hm.popB
    obtain ⟨id_, vs, rfl, h_id_, hm⟩ := hm.popH
    obtain ⟨language_dll_name, vs, rfl, h_language_dll_name, hm⟩ := hm.popL
    obtain ⟨language_dll_creation, vs, rfl, h_language_dll_creation, hm⟩ := hm.popL
    obtain ⟨class_, vs, rfl, h_class_, hm⟩ := hm.popH
    obtain ⟨standing_graphic_1, vs, rfl, h_standing_graphic_1, hm⟩ := hm.popH
    obtain ⟨standing_graphic_2, vs, rfl, h_standing_graphic_2, hm⟩ := hm.popH
    obtain ⟨dying_graphic, vs, rfl, h_dying_graphic, hm⟩ := hm.popH
    obtain ⟨undead_graphic, vs, rfl, h_undead_graphic, hm⟩ := hm.popH
    obtain ⟨undead_mode, vs, rfl, h_undead_mode, hm⟩ := hm.popB
    obtain ⟨hit_points, vs, rfl, h_hit_points, hm⟩ := hm.popH
    obtain ⟨line_of_sight, vs, rfl, h_line_of_sight, hm⟩ := hm.popF
    obtain ⟨garrison_capacity, vs, rfl, h_garrison_capacity, hm⟩ := hm.popB
    obtain ⟨collision_size_x, vs, rfl, h_collision_size_x, hm⟩ := hm.popF
    obtain ⟨collision_size_y, vs, rfl, h_collision_size_y, hm⟩ := hm.popF
    obtain ⟨collision_size_z, vs, rfl, h_collision_size_z, hm⟩ := hm.popF
    obtain ⟨train_sound, vs, rfl, h_train_sound, hm⟩ := hm.popH
    obtain ⟨damage_sound, vs, rfl, h_damage_sound, hm⟩ := hm.popH
    obtain ⟨dead_unit_id, vs, rfl, h_dead_unit_id, hm⟩ := hm.popH
    obtain ⟨blood_unit_id, vs, rfl, h_blood_unit_id, hm⟩ := hm.popH
    obtain ⟨sort_number, vs, rfl, h_sort_number, hm⟩ := hm.popB
    obtain ⟨can_be_built_on, vs, rfl, h_can_be_built_on, hm⟩ := hm.popB
    obtain ⟨icon_id, vs, rfl, h_icon_id, hm⟩ := hm.popH
    obtain ⟨hide_in_editor, vs, rfl, h_hide_in_editor, hm⟩ := hm.popB
    obtain ⟨old_portrait_pict, vs, rfl, h_old_portrait_pict, hm⟩ := hm.popH
    obtain ⟨enabled, vs, rfl, h_enabled, hm⟩ := hm.popB
    obtain ⟨disabled, vs, rfl, h_disabled, hm⟩ := hm.popB
    obtain ⟨placement_side_terrain_1, vs, rfl, h_placement_side_terrain_1, hm⟩ := hm.popH
    obtain ⟨placement_side_terrain_2, vs, rfl, h_placement_side_terrain_2, hm⟩ := hm.popH
    obtain ⟨placement_terrain_1, vs, rfl, h_placement_terrain_1, hm⟩ := hm.popH
    obtain ⟨placement_terrain_2, vs, rfl, h_placement_terrain_2, hm⟩ := hm.popH
    obtain ⟨clearance_size_1, vs, rfl, h_clearance_size_1, hm⟩ := hm.popF
    obtain ⟨clearance_size_2, vs, rfl, h_clearance_size_2, hm⟩ := hm.popF
    obtain ⟨hill_mode, vs, rfl, h_hill_mode, hm⟩ := hm.popB
    obtain ⟨fog_visibility, vs, rfl, h_fog_visibility, hm⟩ := hm.popB
    obtain ⟨terrain_restriction, vs, rfl, h_terrain_restriction, hm⟩ := hm.popH
    obtain ⟨fly_mode, vs, rfl, h_fly_mode, hm⟩ := hm.popB
    obtain ⟨resource_capacity, vs, rfl, h_resource_capacity, hm⟩ := hm.popH
    obtain ⟨resource_decay, vs, rfl, h_resource_decay, hm⟩ := hm.popF
    obtain ⟨blast_defense_level, vs, rfl, h_blast_defense_level, hm⟩ := hm.popB
    obtain ⟨combat_level, vs, rfl, h_combat_level, hm⟩ := hm.popB
    obtain ⟨interaction_mode, vs, rfl, h_interaction_mode, hm⟩ := hm.popB
    obtain ⟨minimap_mode, vs, rfl, h_minimap_mode, hm⟩ := hm.popB
    obtain ⟨interface_kind, vs, rfl, h_interface_kind, hm⟩ := hm.popB
    obtain ⟨multiple_attribute_mode, vs, rfl, h_multiple_attribute_mode, hm⟩ := hm.popF
    obtain ⟨minimap_color, vs, rfl, h_minimap_color, hm⟩ := hm.popB
    obtain ⟨language_dll_help, vs, rfl, h_language_dll_help, hm⟩ := hm.popL
    obtain ⟨language_dll_hotkey_text, vs, rfl, h_language_dll_hotkey_text, hm⟩ := hm.popL
    obtain ⟨hot_key, vs, rfl, h_hot_key, hm⟩ := hm.popL
    obtain ⟨recyclable, vs, rfl, h_recyclable, hm⟩ := hm.popB
    obtain ⟨enable_auto_gather, vs, rfl, h_enable_auto_gather, hm⟩ := hm.popB
    obtain ⟨create_doppelganger_on_death, vs, rfl, h_create_doppelganger_on_death, hm⟩ := hm.popB
    obtain ⟨resource_gather_group, vs, rfl, h_resource_gather_group, hm⟩ := hm.popB
    obtain ⟨occlusion_mode, vs, rfl, h_occlusion_mode, hm⟩ := hm.popB
    obtain ⟨obstruction_type, vs, rfl, h_obstruction_type, hm⟩ := hm.popB
    obtain ⟨obstruction_class, vs, rfl, h_obstruction_class, hm⟩ := hm.popB
    obtain ⟨trait, vs, rfl, h_trait, hm⟩ := hm.popB
    obtain ⟨civilization, vs, rfl, h_civilization, hm⟩ := hm.popB
    obtain ⟨nothing, vs, rfl, h_nothing, hm⟩ := hm.popH
    obtain ⟨selection_effect, vs, rfl, h_selection_effect, hm⟩ := hm.popB
    obtain ⟨editor_selection_colour, vs, rfl, h_editor_selection_colour, hm⟩ := hm.popB
    obtain ⟨outline_size_x, vs, rfl, h_outline_size_x, hm⟩ := hm.popF
    obtain ⟨outline_size_y, vs, rfl, h_outline_size_y, hm⟩ := hm.popF
    obtain ⟨outline_size_z, vs, rfl, h_outline_size_z, hm⟩ := hm.popF
    obtain ⟨scenario_triggers_1, vs, rfl, h_scenario_triggers_1, hm⟩ := hm.popL
    obtain ⟨scenario_triggers_2, vs, rfl, h_scenario_triggers_2, hm⟩ := hm.popL
    obtain rfl := hm.done
    dsimp only [popInt, popFloat, popDone]
    refine Lax.bind (Lax.classArray3 (ResourceStorage.lax v)) fun resource_storages h_resource_storages => ?_
    refine Lax.bind Lax.int8 fun damage_graphic_size h_damage_graphic_size => ?_
    refine Lax.bind (Lax.classArray _ (DamageGraphic.lax v)) fun damage_graphics h_damage_graphics => ?_
    refine Lax.bind Lax.int16 fun selection_sound h_selection_sound => ?_
    refine Lax.bind Lax.int16 fun dying_sound h_dying_sound => ?_
    refine Lax.bind Lax.int32 fun wwise_train_sound_id h_wwise_train_sound_id => ?_
    refine Lax.bind Lax.int32 fun wwise_damage_sound_id h_wwise_damage_sound_id => ?_
    refine Lax.bind Lax.int32 fun wwise_selection_sound_id h_wwise_selection_sound_id => ?_
    refine Lax.bind Lax.int32 fun wwise_dying_sound_id h_wwise_dying_sound_id => ?_
    refine Lax.bind Lax.int8 fun old_attack_reaction h_old_attack_reaction => ?_
    refine Lax.bind Lax.int8 fun convert_terrain h_convert_terrain => ?_
    refine Lax.bind Lax.debugString fun name h_name => ?_
    refine Lax.bind Lax.int16 fun copy_id h_copy_id => ?_
    refine Lax.bind Lax.int16 fun base_id h_base_id => ?_
    refine Lax.bind (Lax.readIf Lax.float) fun speed h_speed => ?_
    refine Lax.bind (Lax.readIf (Lax.class_ (DeadFish.lax v))) fun dead_fish h_dead_fish => ?_
    refine Lax.bind (Lax.readIf (Lax.class_ (Bird.lax v))) fun bird h_bird => ?_
    refine Lax.bind (Lax.readIf (Lax.class_ (Type50.lax v))) fun type_50 h_type_50 => ?_
    refine Lax.bind (Lax.readIf (Lax.class_ (Projectile.lax v))) fun projectile h_projectile => ?_
    refine Lax.bind (Lax.readIf (Lax.class_ ((Creatable.lax v).with_ (Creatable.good v)))) fun creatable h_creatable => ?_
    refine Lax.bind (Lax.readIf (Lax.class_ (Building.lax v))) fun building h_building => ?_
    refine Lax.pure trivial ?_
    intro b21 k21 b20 k20 b19 k19 b18 k18 b17 k17 b16 k16 b15 k15 b14 k14 b13 k13 b12 k12 b11 k11 b10 k10 b9 k9 b8 k8 b7 k7 b6 k6 b5 k5 b4 k4 b3 k3 b2 k2 b1 k1 b0 k0
    have hkey : ∀ {bs}, ReadAsM (Layout.part (type_ ≠ 90 ∧ 70 ≤ type_) (Creatable.layout v) creatable) bs →
        ReadAsM (Layout.part (type_ ≠ 90 ∧ 70 ≤ type_) (Creatable.layout v) (creatable.map (Creatable.withHotKey hot_key))) bs := by
      intro bs h
      cases creatable with
      | none => exact h
      | some c =>
        have hw : Creatable.WFWith v 16000 c := h_creatable.2 c rfl
        rw [Option.map_some]
        have e := Creatable.layout_withHotKey hv hot_key (hw.nonempty hv)
        unfold Layout.part at h ⊢
        simp only [e]
        exact h
    simp only [Unit.layout, if_neg hv]
    exact ReadAsM.cons (k0 _ (by decide)) (.cons k1 (.cons (by first | exact k2.int | exact k2.count (by assumption)) (.cons k3 (.cons (by first | exact k4.int | exact k4.count (by assumption)) (.cons (by first | exact k5.int | exact k5.count (by assumption)) (.cons (by first | exact k6.int | exact k6.count (by assumption)) (.cons (by first | exact k7.int | exact k7.count (by assumption)) (.cons (by first | exact k8.int | exact k8.count (by assumption)) (.cons (by first | exact k9.int | exact k9.count (by assumption)) (.cons (by first | exact k10.int | exact k10.count (by assumption)) (.cons (by first | exact k11.int | exact k11.count (by assumption)) (.cons k12 (.cons (by first | exact k13.int | exact k13.count (by assumption)) (.cons (by first | exact k14.int | exact k14.count (by assumption)) (.cons (k15.partIff (has_speed _)) (.cons (k16.partIff (has_dead_fish _)) (.cons (k17.partIff (has_bird _)) (.cons (k18.partIff (has_type_50 _)) (.cons (k19.partIff (has_projectile _)) (.cons (hkey (k20.partIff (has_creatable _))) (.cons (k21.partIff (has_building _)) ReadAsM.nil)))))))))))))))))))))

theorem Civ.lax (v : Version) :
    Lax v Civ.fromBytes (fun _ => True) (fun x bs => ReadAsM (Civ.layout v x) bs) := by
  unfold Civ.fromBytes
  refine Lax.bind (Lax.int8) fun player_type h_player_type => ?_
  refine Lax.bind (Lax.debugString) fun name h_name => ?_
  refine Lax.bind (Lax.int16) fun resources_size h_resources_size => ?_
  refine Lax.bind (Lax.int16) fun tech_tree_id h_tech_tree_id => ?_
  refine Lax.bind (Lax.int16) fun team_bonus_id h_team_bonus_id => ?_
  refine Lax.bind (Lax.floatArray _) fun resources h_resources => ?_
  refine Lax.bind (Lax.int8) fun icon_set h_icon_set => ?_
  refine Lax.bind (Lax.int16) fun units_size h_units_size => ?_
  refine Lax.bind (Lax.pointers _) fun unit_pointers h_unit_pointers => ?_
  refine Lax.bind (Lax.classArrayWithPointers h_unit_pointers (Unit.lax v)) fun units h_units => ?_
  have hu : units.length = units_size.toNat := by
    have := congrArg List.length h_units
    rw [List.length_map, List.length_map] at this; omega
  refine Lax.pure trivial ?_
  intro b9 k9 b8 k8 b7 k7 b6 k6 b5 k5 b4 k4 b3 k3 b2 k2 b1 k1 b0 k0
  simp only [Civ.layout]
  exact ReadAsM.cons (by first | exact k0.int | exact k0.count (by assumption)) (.cons k1 (.cons (by first | exact k2.int | exact k2.count (by assumption)) (.cons (by first | exact k3.int | exact k3.count (by assumption)) (.cons (by first | exact k4.int | exact k4.count (by assumption)) (.cons k5 (.cons (by first | exact k6.int | exact k6.count (by assumption)) (.cons (by first | exact k7.int | exact k7.count hu) (.cons (pointers_readAsM k8.1 k8.2 h_units) (.cons k9 ReadAsM.nil)))))))))

end Genie
