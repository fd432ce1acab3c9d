import Verif.Proof.Containers
import Verif.Spec.Records
/-! # Write-read and read-write lemmas of the plain records (UnitParts); generated by `tools/gen_records.py` -/

namespace Genie

theorem ResourceStorage.rw {v : Version} {x : ResourceStorage} (h : ResourceStorage.WF v x) :
    RW v ResourceStorage.fromBytes (ResourceStorage.toBytes v x) x := by
  obtain ⟨x_type, x_amount, x_flag⟩ := x
  obtain ⟨h_type, h_amount, h_flag⟩ := h
  dsimp only at h_type h_amount h_flag
  unfold ResourceStorage.fromBytes ResourceStorage.toBytes
  refine RW.map (RW.unpack (cs := [.h, .f, .b]) (by decide) (by decide)
      ⟨h_type, h_amount, h_flag, trivial⟩) ?_
  dsimp only [popInt, popFloat, popDone, List.map, List.cons_append, List.nil_append]
  exact Reads.pure rfl

theorem ResourceStorage.good (v : Version) :
    Good v ResourceStorage.fromBytes (ResourceStorage.WF v) (fun x bs => ResourceStorage.toBytes v x = .ok bs) := by
  unfold ResourceStorage.fromBytes
  refine Good.bind (Good.unpack (cs := [.h, .f, .b]) (by decide)) fun vs hm => ?_
  obtain ⟨type_, vs, rfl, h_type_, hm⟩ := hm.popH
  obtain ⟨amount, vs, rfl, h_amount, hm⟩ := hm.popF
  obtain ⟨flag, vs, rfl, h_flag, hm⟩ := hm.popB
  obtain rfl := hm.done
  dsimp only [popInt, popFloat, popDone]
  refine Good.pure ⟨h_type_, h_amount, h_flag⟩ ?_
  rintro b0 k0
  unfold ResourceStorage.toBytes
  rw [List.append_nil]; exact k0

theorem DamageGraphic.rw {v : Version} {x : DamageGraphic} (h : DamageGraphic.WF v x) :
    RW v DamageGraphic.fromBytes (DamageGraphic.toBytes v x) x := by
  obtain ⟨x_graphic_id, x_damage_percent, x_apply_mode⟩ := x
  obtain ⟨h_graphic_id, h_damage_percent, h_apply_mode⟩ := h
  dsimp only at h_graphic_id h_damage_percent h_apply_mode
  unfold DamageGraphic.fromBytes DamageGraphic.toBytes
  refine RW.map (RW.unpack (cs := [.h, .h, .b]) (by decide) (by decide)
      ⟨h_graphic_id, h_damage_percent, h_apply_mode, trivial⟩) ?_
  dsimp only [popInt, popFloat, popDone, List.map, List.cons_append, List.nil_append]
  exact Reads.pure rfl

theorem DamageGraphic.good (v : Version) :
    Good v DamageGraphic.fromBytes (DamageGraphic.WF v) (fun x bs => DamageGraphic.toBytes v x = .ok bs) := by
  unfold DamageGraphic.fromBytes
  refine Good.bind (Good.unpack (cs := [.h, .h, .b]) (by decide)) fun vs hm => ?_
  obtain ⟨graphic_id, vs, rfl, h_graphic_id, hm⟩ := hm.popH
  obtain ⟨damage_percent, vs, rfl, h_damage_percent, hm⟩ := hm.popH
  obtain ⟨apply_mode, vs, rfl, h_apply_mode, hm⟩ := hm.popB
  obtain rfl := hm.done
  dsimp only [popInt, popFloat, popDone]
  refine Good.pure ⟨h_graphic_id, h_damage_percent, h_apply_mode⟩ ?_
  rintro b0 k0
  unfold DamageGraphic.toBytes
  rw [List.append_nil]; exact k0

theorem DeadFish.rw {v : Version} {x : DeadFish} (h : DeadFish.WF v x) :
    RW v DeadFish.fromBytes (DeadFish.toBytes v x) x := by
  obtain ⟨x_walking_graphic, x_running_graphic, x_rotation_speed, x_old_size_class, x_tracking_unit, x_tracking_unit_mode, x_tracking_unit_density, x_old_move_algorithm, x_turn_radius, x_turn_radius_speed, x_max_yaw_per_second_moving, x_stationary_yaw_revolution_time, x_max_yaw_per_second_stationary, x_min_collision_size_multiplier⟩ := x
  obtain ⟨h_walking_graphic, h_running_graphic, h_rotation_speed, h_old_size_class, h_tracking_unit, h_tracking_unit_mode, h_tracking_unit_density, h_old_move_algorithm, h_turn_radius, h_turn_radius_speed, h_max_yaw_per_second_moving, h_stationary_yaw_revolution_time, h_max_yaw_per_second_stationary, h_min_collision_size_multiplier⟩ := h
  dsimp only at h_walking_graphic h_running_graphic h_rotation_speed h_old_size_class h_tracking_unit h_tracking_unit_mode h_tracking_unit_density h_old_move_algorithm h_turn_radius h_turn_radius_speed h_max_yaw_per_second_moving h_stationary_yaw_revolution_time h_max_yaw_per_second_stationary h_min_collision_size_multiplier
  unfold DeadFish.fromBytes DeadFish.toBytes
  refine RW.map (RW.unpack (cs := [.h, .h, .f, .b, .h, .b, .f, .b, .f, .f, .f, .f, .f, .f]) (by decide) (by decide)
      ⟨h_walking_graphic, h_running_graphic, h_rotation_speed, h_old_size_class, h_tracking_unit, h_tracking_unit_mode, h_tracking_unit_density, h_old_move_algorithm, h_turn_radius, h_turn_radius_speed, h_max_yaw_per_second_moving, h_stationary_yaw_revolution_time, h_max_yaw_per_second_stationary, h_min_collision_size_multiplier, trivial⟩) ?_
  dsimp only [popInt, popFloat, popDone, List.map, List.cons_append, List.nil_append]
  exact Reads.pure rfl

theorem DeadFish.good (v : Version) :
    Good v DeadFish.fromBytes (DeadFish.WF v) (fun x bs => DeadFish.toBytes v x = .ok bs) := by
  unfold DeadFish.fromBytes
  refine Good.bind (Good.unpack (cs := [.h, .h, .f, .b, .h, .b, .f, .b, .f, .f, .f, .f, .f, .f]) (by decide)) fun vs hm => ?_
  obtain ⟨walking_graphic, vs, rfl, h_walking_graphic, hm⟩ := hm.popH
  obtain ⟨running_graphic, vs, rfl, h_running_graphic, hm⟩ := hm.popH
  obtain ⟨rotation_speed, vs, rfl, h_rotation_speed, hm⟩ := hm.popF
  obtain ⟨old_size_class, vs, rfl, h_old_size_class, hm⟩ := hm.popB
  obtain ⟨tracking_unit, vs, rfl, h_tracking_unit, hm⟩ := hm.popH
  obtain ⟨tracking_unit_mode, vs, rfl, h_tracking_unit_mode, hm⟩ := hm.popB
  obtain ⟨tracking_unit_density, vs, rfl, h_tracking_unit_density, hm⟩ := hm.popF
  obtain ⟨old_move_algorithm, vs, rfl, h_old_move_algorithm, hm⟩ := hm.popB
  obtain ⟨turn_radius, vs, rfl, h_turn_radius, hm⟩ := hm.popF
  obtain ⟨turn_radius_speed, vs, rfl, h_turn_radius_speed, hm⟩ := hm.popF
  obtain ⟨max_yaw_per_second_moving, vs, rfl, h_max_yaw_per_second_moving, hm⟩ := hm.popF
  obtain ⟨stationary_yaw_revolution_time, vs, rfl, h_stationary_yaw_revolution_time, hm⟩ := hm.popF
  obtain ⟨max_yaw_per_second_stationary, vs, rfl, h_max_yaw_per_second_stationary, hm⟩ := hm.popF
  obtain ⟨min_collision_size_multiplier, vs, rfl, h_min_collision_size_multiplier, hm⟩ := hm.popF
  obtain rfl := hm.done
  dsimp only [popInt, popFloat, popDone]
  refine Good.pure ⟨h_walking_graphic, h_running_graphic, h_rotation_speed, h_old_size_class, h_tracking_unit, h_tracking_unit_mode, h_tracking_unit_density, h_old_move_algorithm, h_turn_radius, h_turn_radius_speed, h_max_yaw_per_second_moving, h_stationary_yaw_revolution_time, h_max_yaw_per_second_stationary, h_min_collision_size_multiplier⟩ ?_
  rintro b0 k0
  unfold DeadFish.toBytes
  rw [List.append_nil]; exact k0

theorem AttackOrArmor.rw {v : Version} {x : AttackOrArmor} (h : AttackOrArmor.WF v x) :
    RW v AttackOrArmor.fromBytes (AttackOrArmor.toBytes v x) x := by
  obtain ⟨x_class_, x_amount⟩ := x
  obtain ⟨h_class_, h_amount⟩ := h
  dsimp only at h_class_ h_amount
  unfold AttackOrArmor.fromBytes AttackOrArmor.toBytes
  refine RW.map (RW.unpack (cs := [.h, .h]) (by decide) (by decide)
      ⟨h_class_, h_amount, trivial⟩) ?_
  dsimp only [popInt, popFloat, popDone, List.map, List.cons_append, List.nil_append]
  exact Reads.pure rfl

theorem AttackOrArmor.good (v : Version) :
    Good v AttackOrArmor.fromBytes (AttackOrArmor.WF v) (fun x bs => AttackOrArmor.toBytes v x = .ok bs) := by
  unfold AttackOrArmor.fromBytes
  refine Good.bind (Good.unpack (cs := [.h, .h]) (by decide)) fun vs hm => ?_
  obtain ⟨class_, vs, rfl, h_class_, hm⟩ := hm.popH
  obtain ⟨amount, vs, rfl, h_amount, hm⟩ := hm.popH
  obtain rfl := hm.done
  dsimp only [popInt, popFloat, popDone]
  refine Good.pure ⟨h_class_, h_amount⟩ ?_
  rintro b0 k0
  unfold AttackOrArmor.toBytes
  rw [List.append_nil]; exact k0

theorem Projectile.rw {v : Version} {x : Projectile} (h : Projectile.WF v x) :
    RW v Projectile.fromBytes (Projectile.toBytes v x) x := by
  obtain ⟨x_projectile_type, x_smart_mode, x_hit_mode, x_vanish_mode, x_area_effect_specials, x_projectile_arc⟩ := x
  obtain ⟨h_projectile_type, h_smart_mode, h_hit_mode, h_vanish_mode, h_area_effect_specials, h_projectile_arc⟩ := h
  dsimp only at h_projectile_type h_smart_mode h_hit_mode h_vanish_mode h_area_effect_specials h_projectile_arc
  unfold Projectile.fromBytes Projectile.toBytes
  refine RW.map (RW.unpack (cs := [.b, .b, .b, .b, .b, .f]) (by decide) (by decide)
      ⟨h_projectile_type, h_smart_mode, h_hit_mode, h_vanish_mode, h_area_effect_specials, h_projectile_arc, trivial⟩) ?_
  dsimp only [popInt, popFloat, popDone, List.map, List.cons_append, List.nil_append]
  exact Reads.pure rfl

theorem Projectile.good (v : Version) :
    Good v Projectile.fromBytes (Projectile.WF v) (fun x bs => Projectile.toBytes v x = .ok bs) := by
  unfold Projectile.fromBytes
  refine Good.bind (Good.unpack (cs := [.b, .b, .b, .b, .b, .f]) (by decide)) fun vs hm => ?_
  obtain ⟨projectile_type, vs, rfl, h_projectile_type, hm⟩ := hm.popB
  obtain ⟨smart_mode, vs, rfl, h_smart_mode, hm⟩ := hm.popB
  obtain ⟨hit_mode, vs, rfl, h_hit_mode, hm⟩ := hm.popB
  obtain ⟨vanish_mode, vs, rfl, h_vanish_mode, hm⟩ := hm.popB
  obtain ⟨area_effect_specials, vs, rfl, h_area_effect_specials, hm⟩ := hm.popB
  obtain ⟨projectile_arc, vs, rfl, h_projectile_arc, hm⟩ := hm.popF
  obtain rfl := hm.done
  dsimp only [popInt, popFloat, popDone]
  refine Good.pure ⟨h_projectile_type, h_smart_mode, h_hit_mode, h_vanish_mode, h_area_effect_specials, h_projectile_arc⟩ ?_
  rintro b0 k0
  unfold Projectile.toBytes
  rw [List.append_nil]; exact k0

theorem ResourceCost.rw {v : Version} {x : ResourceCost} (h : ResourceCost.WF v x) :
    RW v ResourceCost.fromBytes (ResourceCost.toBytes v x) x := by
  obtain ⟨x_type, x_amount, x_flag⟩ := x
  obtain ⟨h_type, h_amount, h_flag⟩ := h
  dsimp only at h_type h_amount h_flag
  unfold ResourceCost.fromBytes ResourceCost.toBytes
  refine RW.map (RW.unpack (cs := [.h, .h, .h]) (by decide) (by decide)
      ⟨h_type, h_amount, h_flag, trivial⟩) ?_
  dsimp only [popInt, popFloat, popDone, List.map, List.cons_append, List.nil_append]
  exact Reads.pure rfl

theorem ResourceCost.good (v : Version) :
    Good v ResourceCost.fromBytes (ResourceCost.WF v) (fun x bs => ResourceCost.toBytes v x = .ok bs) := by
  unfold ResourceCost.fromBytes
  refine Good.bind (Good.unpack (cs := [.h, .h, .h]) (by decide)) fun vs hm => ?_
  obtain ⟨type_, vs, rfl, h_type_, hm⟩ := hm.popH
  obtain ⟨amount, vs, rfl, h_amount, hm⟩ := hm.popH
  obtain ⟨flag, vs, rfl, h_flag, hm⟩ := hm.popH
  obtain rfl := hm.done
  dsimp only [popInt, popFloat, popDone]
  refine Good.pure ⟨h_type_, h_amount, h_flag⟩ ?_
  rintro b0 k0
  unfold ResourceCost.toBytes
  rw [List.append_nil]; exact k0

theorem BuildingAnnex.rw {v : Version} {x : BuildingAnnex} (h : BuildingAnnex.WF v x) :
    RW v BuildingAnnex.fromBytes (BuildingAnnex.toBytes v x) x := by
  obtain ⟨x_unit_id, x_misplacement_x, x_misplacement_y⟩ := x
  obtain ⟨h_unit_id, h_misplacement_x, h_misplacement_y⟩ := h
  dsimp only at h_unit_id h_misplacement_x h_misplacement_y
  unfold BuildingAnnex.fromBytes BuildingAnnex.toBytes
  refine RW.map (RW.unpack (cs := [.h, .f, .f]) (by decide) (by decide)
      ⟨h_unit_id, h_misplacement_x, h_misplacement_y, trivial⟩) ?_
  dsimp only [popInt, popFloat, popDone, List.map, List.cons_append, List.nil_append]
  exact Reads.pure rfl

theorem BuildingAnnex.good (v : Version) :
    Good v BuildingAnnex.fromBytes (BuildingAnnex.WF v) (fun x bs => BuildingAnnex.toBytes v x = .ok bs) := by
  unfold BuildingAnnex.fromBytes
  refine Good.bind (Good.unpack (cs := [.h, .f, .f]) (by decide)) fun vs hm => ?_
  obtain ⟨unit_id, vs, rfl, h_unit_id, hm⟩ := hm.popH
  obtain ⟨misplacement_x, vs, rfl, h_misplacement_x, hm⟩ := hm.popF
  obtain ⟨misplacement_y, vs, rfl, h_misplacement_y, hm⟩ := hm.popF
  obtain rfl := hm.done
  dsimp only [popInt, popFloat, popDone]
  refine Good.pure ⟨h_unit_id, h_misplacement_x, h_misplacement_y⟩ ?_
  rintro b0 k0
  unfold BuildingAnnex.toBytes
  rw [List.append_nil]; exact k0

theorem Building.rw {v : Version} {x : Building} (h : Building.WF v x) :
    RW v Building.fromBytes (Building.toBytes v x) x := by
  obtain ⟨x_construction_graphic_id, x_snow_graphic_id, x_destruction_graphic_id, x_destruction_rubble_graphic_id, x_researching_graphic, x_research_completed_graphic, x_adjacent_mode, x_graphics_angle, x_disappears_when_built, x_stack_unit_id, x_foundation_terrain_id, x_old_overlap_id, x_tech_id, x_can_burn, x_annexes, x_head_unit, x_transform_unit, x_transform_sound, x_construction_sound, x_wwise_transform_sound_id, x_wwise_construction_sound_id, x_garrison_type, x_garrison_heal_rate, x_garrison_repair_rate, x_pile_unit, x_looting_table⟩ := x
  obtain ⟨h_construction_graphic_id, h_snow_graphic_id, h_destruction_graphic_id, h_destruction_rubble_graphic_id, h_researching_graphic, h_research_completed_graphic, h_adjacent_mode, h_graphics_angle, h_disappears_when_built, h_stack_unit_id, h_foundation_terrain_id, h_old_overlap_id, h_tech_id, h_can_burn, h_annexes, h_head_unit, h_transform_unit, h_transform_sound, h_construction_sound, h_wwise_transform_sound_id, h_wwise_construction_sound_id, h_garrison_type, h_garrison_heal_rate, h_garrison_repair_rate, h_pile_unit, h_looting_table⟩ := h
  dsimp only at h_construction_graphic_id h_snow_graphic_id h_destruction_graphic_id h_destruction_rubble_graphic_id h_researching_graphic h_research_completed_graphic h_adjacent_mode h_graphics_angle h_disappears_when_built h_stack_unit_id h_foundation_terrain_id h_old_overlap_id h_tech_id h_can_burn h_annexes h_head_unit h_transform_unit h_transform_sound h_construction_sound h_wwise_transform_sound_id h_wwise_construction_sound_id h_garrison_type h_garrison_heal_rate h_garrison_repair_rate h_pile_unit h_looting_table
  obtain ⟨hl_looting_table, h_looting_table⟩ := h_looting_table
  obtain ⟨x_looting_table_0, x_looting_table_1, x_looting_table_2, x_looting_table_3, x_looting_table_4, x_looting_table_5, rfl⟩ := length_eq_6 hl_looting_table
  unfold Building.fromBytes Building.toBytes
  refine RW.bind (RW.unpack (cs := [.h, .h, .h, .h, .h, .h, .b, .h, .b, .h, .h, .h, .h, .b]) (by decide) (by decide)
      ⟨h_construction_graphic_id, h_snow_graphic_id, h_destruction_graphic_id, h_destruction_rubble_graphic_id, h_researching_graphic, h_research_completed_graphic, h_adjacent_mode, h_graphics_angle, h_disappears_when_built, h_stack_unit_id, h_foundation_terrain_id, h_old_overlap_id, h_tech_id, h_can_burn, trivial⟩) ?_
  dsimp only [popInt, popFloat, popDone, List.map, List.cons_append, List.nil_append]
  refine RW.bind (RW.classArray4 h_annexes.1 fun y hy => BuildingAnnex.rw (h_annexes.2 y hy)) ?_
  refine RW.bind (RW.unpack (cs := [.h, .h, .h, .h, .l, .l, .b, .f, .f, .h, .b, .b, .b, .b, .b, .b]) (by decide) (by decide)
      ⟨h_head_unit, h_transform_unit, h_transform_sound, h_construction_sound, h_wwise_transform_sound_id, h_wwise_construction_sound_id, h_garrison_type, h_garrison_heal_rate, h_garrison_repair_rate, h_pile_unit, h_looting_table _ (by simp), h_looting_table _ (by simp), h_looting_table _ (by simp), h_looting_table _ (by simp), h_looting_table _ (by simp), h_looting_table _ (by simp), trivial⟩) ?_
  dsimp only [popInt, popFloat, popDone, List.map, List.cons_append, List.nil_append]
  exact RW.pure rfl

theorem Building.good (v : Version) :
    Good v Building.fromBytes (Building.WF v) (fun x bs => Building.toBytes v x = .ok bs) := by
  unfold Building.fromBytes
  refine Good.bind (Good.unpack (cs := [.h, .h, .h, .h, .h, .h, .b, .h, .b, .h, .h, .h, .h, .b]) (by decide)) fun vs hm => ?_
  obtain ⟨construction_graphic_id, vs, rfl, h_construction_graphic_id, hm⟩ := hm.popH
  obtain ⟨snow_graphic_id, vs, rfl, h_snow_graphic_id, hm⟩ := hm.popH
  obtain ⟨destruction_graphic_id, vs, rfl, h_destruction_graphic_id, hm⟩ := hm.popH
  obtain ⟨destruction_rubble_graphic_id, vs, rfl, h_destruction_rubble_graphic_id, hm⟩ := hm.popH
  obtain ⟨researching_graphic, vs, rfl, h_researching_graphic, hm⟩ := hm.popH
  obtain ⟨research_completed_graphic, vs, rfl, h_research_completed_graphic, hm⟩ := hm.popH
  obtain ⟨adjacent_mode, vs, rfl, h_adjacent_mode, hm⟩ := hm.popB
  obtain ⟨graphics_angle, vs, rfl, h_graphics_angle, hm⟩ := hm.popH
  obtain ⟨disappears_when_built, vs, rfl, h_disappears_when_built, hm⟩ := hm.popB
  obtain ⟨stack_unit_id, vs, rfl, h_stack_unit_id, hm⟩ := hm.popH
  obtain ⟨foundation_terrain_id, vs, rfl, h_foundation_terrain_id, hm⟩ := hm.popH
  obtain ⟨old_overlap_id, vs, rfl, h_old_overlap_id, hm⟩ := hm.popH
  obtain ⟨tech_id, vs, rfl, h_tech_id, hm⟩ := hm.popH
  obtain ⟨can_burn, vs, rfl, h_can_burn, hm⟩ := hm.popB
  obtain rfl := hm.done
  dsimp only [popInt, popFloat, popDone]
  refine Good.bind (Good.classArray4 (BuildingAnnex.good v)) fun annexes h_annexes => ?_
  refine Good.bind (Good.unpack (cs := [.h, .h, .h, .h, .l, .l, .b, .f, .f, .h, .b, .b, .b, .b, .b, .b]) (by decide)) fun vs hm => ?_
  obtain ⟨head_unit, vs, rfl, h_head_unit, hm⟩ := hm.popH
  obtain ⟨transform_unit, vs, rfl, h_transform_unit, hm⟩ := hm.popH
  obtain ⟨transform_sound, vs, rfl, h_transform_sound, hm⟩ := hm.popH
  obtain ⟨construction_sound, vs, rfl, h_construction_sound, hm⟩ := hm.popH
  obtain ⟨wwise_transform_sound_id, vs, rfl, h_wwise_transform_sound_id, hm⟩ := hm.popL
  obtain ⟨wwise_construction_sound_id, vs, rfl, h_wwise_construction_sound_id, hm⟩ := hm.popL
  obtain ⟨garrison_type, vs, rfl, h_garrison_type, hm⟩ := hm.popB
  obtain ⟨garrison_heal_rate, vs, rfl, h_garrison_heal_rate, hm⟩ := hm.popF
  obtain ⟨garrison_repair_rate, vs, rfl, h_garrison_repair_rate, hm⟩ := hm.popF
  obtain ⟨pile_unit, vs, rfl, h_pile_unit, hm⟩ := hm.popH
  obtain ⟨looting_table_1, vs, rfl, h_looting_table_1, hm⟩ := hm.popB
  obtain ⟨looting_table_2, vs, rfl, h_looting_table_2, hm⟩ := hm.popB
  obtain ⟨looting_table_3, vs, rfl, h_looting_table_3, hm⟩ := hm.popB
  obtain ⟨looting_table_4, vs, rfl, h_looting_table_4, hm⟩ := hm.popB
  obtain ⟨looting_table_5, vs, rfl, h_looting_table_5, hm⟩ := hm.popB
  obtain ⟨looting_table_6, vs, rfl, h_looting_table_6, hm⟩ := hm.popB
  obtain rfl := hm.done
  dsimp only [popInt, popFloat, popDone]
  refine Good.pure ⟨h_construction_graphic_id, h_snow_graphic_id, h_destruction_graphic_id, h_destruction_rubble_graphic_id, h_researching_graphic, h_research_completed_graphic, h_adjacent_mode, h_graphics_angle, h_disappears_when_built, h_stack_unit_id, h_foundation_terrain_id, h_old_overlap_id, h_tech_id, h_can_burn, h_annexes, h_head_unit, h_transform_unit, h_transform_sound, h_construction_sound, h_wwise_transform_sound_id, h_wwise_construction_sound_id, h_garrison_type, h_garrison_heal_rate, h_garrison_repair_rate, h_pile_unit, ⟨rfl, by simp [AllOf, h_looting_table_1, h_looting_table_2, h_looting_table_3, h_looting_table_4, h_looting_table_5, h_looting_table_6]⟩⟩ ?_
  rintro b2 k2 b1 k1 b0 k0
  unfold Building.toBytes
  exact joinB_cons_ok k0 (joinB_cons_ok k1 (joinB_cons_ok k2 rfl))

end Genie
