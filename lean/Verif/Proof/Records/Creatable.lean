import Verif.Proof.Records.TaskBird
/-! # Write-read and read-write lemmas: `TrainLocation`, `Creatable` -/

namespace Genie

theorem not_ge {v w : Version} (h : ¬ w.num ≤ v.num) : ¬ v.ge w = true := fun k => h ((ge_iff _ _).1 k)

theorem TrainLocation.rw {v : Version} {x : TrainLocation} (h : TrainLocation.WF v x) :
    RW v TrainLocation.fromBytes (TrainLocation.toBytes v x) x := by
  unfold TrainLocation.fromBytes TrainLocation.toBytes
  refine RW.getVersion ?_
  by_cases hv : 88 ≤ v.num
  · have hg : v.ge .VER_88 = true := (ge_iff _ _).2 hv
    rw [if_pos hg, if_pos hg]
    unfold TrainLocation.fromBytes88
    refine RW.map (RW.unpack (cs := [.h, .h, .b, .l]) (by decide) (by decide)
      ⟨h.train_time, h.unit_id, h.button_id, h.hot_key_id.pos hv, trivial⟩) ?_
    exact Reads.pure rfl
  · have hg := not_ge (w := .VER_88) hv
    rw [if_neg hg, if_neg hg]
    unfold TrainLocation.fromBytes84
    refine RW.map (RW.unpack (cs := [.h, .h, .b]) (by decide) (by decide)
      ⟨h.train_time, h.unit_id, h.button_id, trivial⟩) ?_
    dsimp only [popInt, popFloat, popDone]
    rw [← h.hot_key_id.neg hv]
    exact Reads.pure rfl

theorem TrainLocation.good (v : Version) :
    Good v TrainLocation.fromBytes (TrainLocation.WF v) (fun x bs => TrainLocation.toBytes v x = .ok bs) := by
  unfold TrainLocation.fromBytes
  refine Good.getVersion ?_
  by_cases hv : 88 ≤ v.num
  · have hg : v.ge .VER_88 = true := (ge_iff _ _).2 hv
    rw [if_pos hg]
    unfold TrainLocation.fromBytes88
    refine Good.bind (Good.unpack (cs := [.h, .h, .b, .l]) (by decide)) fun vs hm => ?_
    obtain ⟨a, vs, rfl, h_a, hm⟩ := hm.popH
    obtain ⟨b, vs, rfl, h_b, hm⟩ := hm.popH
    obtain ⟨c, vs, rfl, h_c, hm⟩ := hm.popB
    obtain ⟨d, vs, rfl, h_d, hm⟩ := hm.popL
    obtain rfl := hm.done
    dsimp only [popInt, popFloat, popDone]
    refine Good.pure ⟨h_a, h_b, h_c, since_pos hv h_d⟩ ?_
    rintro b0 k0
    rw [List.append_nil, TrainLocation.toBytes, if_pos hg]; exact k0
  · have hg := not_ge (w := .VER_88) hv
    rw [if_neg hg]
    unfold TrainLocation.fromBytes84
    refine Good.bind (Good.unpack (cs := [.h, .h, .b]) (by decide)) fun vs hm => ?_
    obtain ⟨a, vs, rfl, h_a, hm⟩ := hm.popH
    obtain ⟨b, vs, rfl, h_b, hm⟩ := hm.popH
    obtain ⟨c, vs, rfl, h_c, hm⟩ := hm.popB
    obtain rfl := hm.done
    dsimp only [popInt, popFloat, popDone]
    refine Good.pure ⟨h_a, h_b, h_c, since_neg hv rfl⟩ ?_
    rintro b0 k0
    rw [List.append_nil, TrainLocation.toBytes, if_neg hg]; exact k0

theorem Creatable.rw {v : Version} {x : Creatable} (h : Creatable.WF v x) :
    RW v Creatable.fromBytes (Creatable.toBytes v x) x := by
  have h : Creatable.WFWith v 16000 x := h
  obtain ⟨x_resource_costs, x_train_locations, x_rear_attack_modifier, x_flank_attack_modifier, x_creatable_type, x_hero_mode, x_garrison_graphic, x_spawning_graphic, x_upgrade_graphic, x_hero_glow_graphic, x_idle_attack_graphic, x_max_charge, x_recharge_rate, x_charge_event, x_charge_type, x_charge_target, x_charge_projectile_unit, x_attack_priority, x_invulnerability_level, x_button_icon_id, x_button_short_tooltip_id, x_button_extended_tooltip_id, x_button_hotkey_action, x_min_conversion_time_mod, x_max_conversion_time_mod, x_conversion_chance_mod, x_total_projectiles, x_max_total_projectiles, x_projectile_spawning_area, x_secondary_projectile_unit, x_special_graphic, x_special_ability, x_displayed_pierce_armour⟩ := x
  obtain ⟨h_resource_costs, h_train_locations, h_rear_attack_modifier, h_flank_attack_modifier, h_creatable_type, h_hero_mode, h_garrison_graphic, h_spawning_graphic, h_upgrade_graphic, h_hero_glow_graphic, h_idle_attack_graphic, h_max_charge, h_recharge_rate, h_charge_event, h_charge_type, h_charge_target, h_charge_projectile_unit, h_attack_priority, h_invulnerability_level, h_button_icon_id, h_button_short_tooltip_id, h_button_extended_tooltip_id, h_button_hotkey_action, h_min_conversion_time_mod, h_max_conversion_time_mod, h_conversion_chance_mod, h_total_projectiles, h_max_total_projectiles, h_projectile_spawning_area, h_secondary_projectile_unit, h_special_graphic, h_special_ability, h_displayed_pierce_armour⟩ := h
  dsimp only at h_resource_costs h_train_locations h_rear_attack_modifier h_flank_attack_modifier h_creatable_type h_hero_mode h_garrison_graphic h_spawning_graphic h_upgrade_graphic h_hero_glow_graphic h_idle_attack_graphic h_max_charge h_recharge_rate h_charge_event h_charge_type h_charge_target h_charge_projectile_unit h_attack_priority h_invulnerability_level h_button_icon_id h_button_short_tooltip_id h_button_extended_tooltip_id h_button_hotkey_action h_min_conversion_time_mod h_max_conversion_time_mod h_conversion_chance_mod h_total_projectiles h_max_total_projectiles h_projectile_spawning_area h_secondary_projectile_unit h_special_graphic h_special_ability h_displayed_pierce_armour
  obtain ⟨hl_projectile_spawning_area, h_projectile_spawning_area⟩ := h_projectile_spawning_area
  obtain ⟨a1, a2, a3, rfl⟩ := length_eq_3 hl_projectile_spawning_area
  unfold Creatable.fromBytes Creatable.toBytes
  refine RW.getVersion ?_
  by_cases hv : 88 ≤ v.num
  · have hg : v.ge .VER_88 = true := (ge_iff _ _).2 hv
    have hv4 : 84 ≤ v.num := by omega
    rw [if_pos hg, if_pos hg]
    replace h_idle_attack_graphic := h_idle_attack_graphic.pos hv4
    replace h_charge_target := h_charge_target.pos hv4
    replace h_charge_projectile_unit := h_charge_projectile_unit.pos hv4
    replace h_attack_priority := h_attack_priority.pos hv4
    replace h_invulnerability_level := h_invulnerability_level.pos hv4
    replace h_button_icon_id := h_button_icon_id.pos hv4
    replace h_button_short_tooltip_id := h_button_short_tooltip_id.pos hv4
    replace h_button_extended_tooltip_id := h_button_extended_tooltip_id.pos hv4
    replace h_button_hotkey_action := h_button_hotkey_action.pos hv4
    replace h_train_locations := h_train_locations.pos hv
    unfold Creatable.fromBytes88 Creatable.toBytes88
    refine RW.bind (RW.classArray3 h_resource_costs.1 fun y hy => ResourceCost.rw (h_resource_costs.2 y hy)) ?_
    refine RW.bind (RW.int16 (isI16_len h_train_locations.1)) ?_
    refine RW.bind (RW.classArray rfl fun y hy => TrainLocation.rw (h_train_locations.2 y hy)) ?_
    refine RW.bind (RW.unpack (cs := [Code.f, Code.f, Code.b, Code.b, Code.l, Code.h, Code.h, Code.h, Code.h, Code.f, Code.f, Code.h, Code.h, Code.h, Code.l, Code.b, Code.f, Code.h, Code.l, Code.l, Code.h, Code.f, Code.f, Code.f, Code.f, Code.b, Code.f, Code.f, Code.f, Code.l, Code.l, Code.b, Code.h]) (by decide) (by decide)
      ⟨h_rear_attack_modifier, h_flank_attack_modifier, h_creatable_type, h_hero_mode, h_garrison_graphic, h_spawning_graphic, h_upgrade_graphic, h_hero_glow_graphic, h_idle_attack_graphic, h_max_charge, h_recharge_rate, h_charge_event, h_charge_type, h_charge_target, h_charge_projectile_unit, h_attack_priority, h_invulnerability_level, h_button_icon_id, h_button_short_tooltip_id, h_button_extended_tooltip_id, h_button_hotkey_action, h_min_conversion_time_mod, h_max_conversion_time_mod, h_conversion_chance_mod, h_total_projectiles, h_max_total_projectiles, h_projectile_spawning_area _ (by simp), h_projectile_spawning_area _ (by simp), h_projectile_spawning_area _ (by simp), h_secondary_projectile_unit, h_special_graphic, h_special_ability, h_displayed_pierce_armour, trivial⟩) ?_
    dsimp only [popInt, popFloat, popDone, List.map, List.cons_append, List.nil_append]
    exact RW.pure rfl
  · have hg := not_ge (w := .VER_88) hv
    rw [if_neg hg, if_neg hg]
    obtain ⟨⟨t1, t2, t3, t4⟩, rfl, ht1, ht2, ht3, ht4⟩ := h_train_locations.neg hv
    dsimp only at ht1 ht2 ht3 ht4
    subst ht4
    by_cases hv4 : 84 ≤ v.num
    · have hg4 : v.ge .VER_84 = true := (ge_iff _ _).2 hv4
      rw [if_pos hg4, if_pos hg4]
      replace h_idle_attack_graphic := h_idle_attack_graphic.pos hv4
      replace h_charge_target := h_charge_target.pos hv4
      replace h_charge_projectile_unit := h_charge_projectile_unit.pos hv4
      replace h_attack_priority := h_attack_priority.pos hv4
      replace h_invulnerability_level := h_invulnerability_level.pos hv4
      replace h_button_icon_id := h_button_icon_id.pos hv4
      replace h_button_short_tooltip_id := h_button_short_tooltip_id.pos hv4
      replace h_button_extended_tooltip_id := h_button_extended_tooltip_id.pos hv4
      replace h_button_hotkey_action := h_button_hotkey_action.pos hv4
      unfold Creatable.fromBytes84 Creatable.toBytes84
      refine RW.bind (RW.classArray3 h_resource_costs.1 fun y hy => ResourceCost.rw (h_resource_costs.2 y hy)) ?_
      refine RW.bind (RW.unpack (cs := [Code.h, Code.h, Code.b, Code.f, Code.f, Code.b, Code.b, Code.l, Code.h, Code.h, Code.h, Code.h, Code.f, Code.f, Code.h, Code.h, Code.h, Code.l, Code.b, Code.f, Code.h, Code.l, Code.l, Code.h, Code.f, Code.f, Code.f, Code.f, Code.b, Code.f, Code.f, Code.f, Code.l, Code.l, Code.b, Code.h]) (by decide) (by decide)
      ⟨ht1, ht2, ht3, h_rear_attack_modifier, h_flank_attack_modifier, h_creatable_type, h_hero_mode, h_garrison_graphic, h_spawning_graphic, h_upgrade_graphic, h_hero_glow_graphic, h_idle_attack_graphic, h_max_charge, h_recharge_rate, h_charge_event, h_charge_type, h_charge_target, h_charge_projectile_unit, h_attack_priority, h_invulnerability_level, h_button_icon_id, h_button_short_tooltip_id, h_button_extended_tooltip_id, h_button_hotkey_action, h_min_conversion_time_mod, h_max_conversion_time_mod, h_conversion_chance_mod, h_total_projectiles, h_max_total_projectiles, h_projectile_spawning_area _ (by simp), h_projectile_spawning_area _ (by simp), h_projectile_spawning_area _ (by simp), h_secondary_projectile_unit, h_special_graphic, h_special_ability, h_displayed_pierce_armour, trivial⟩) ?_
      dsimp only [popInt, popFloat, popDone, List.map, List.cons_append, List.nil_append]
      exact RW.pure rfl
    · have hg4 := not_ge (w := .VER_84) hv4
      rw [if_neg hg4, if_neg hg4]
      replace h_idle_attack_graphic := h_idle_attack_graphic.neg hv4
      subst h_idle_attack_graphic
      replace h_charge_target := h_charge_target.neg hv4
      subst h_charge_target
      replace h_charge_projectile_unit := h_charge_projectile_unit.neg hv4
      subst h_charge_projectile_unit
      replace h_attack_priority := h_attack_priority.neg hv4
      subst h_attack_priority
      replace h_invulnerability_level := h_invulnerability_level.neg hv4
      subst h_invulnerability_level
      replace h_button_icon_id := h_button_icon_id.neg hv4
      subst h_button_icon_id
      replace h_button_short_tooltip_id := h_button_short_tooltip_id.neg hv4
      subst h_button_short_tooltip_id
      replace h_button_extended_tooltip_id := h_button_extended_tooltip_id.neg hv4
      subst h_button_extended_tooltip_id
      replace h_button_hotkey_action := h_button_hotkey_action.neg hv4
      subst h_button_hotkey_action
      unfold Creatable.fromBytes78 Creatable.toBytes78
      refine RW.bind (RW.classArray3 h_resource_costs.1 fun y hy => ResourceCost.rw (h_resource_costs.2 y hy)) ?_
      refine RW.bind (RW.unpack (cs := [Code.h, Code.h, Code.b, Code.f, Code.f, Code.b, Code.b, Code.l, Code.h, Code.h, Code.h, Code.f, Code.f, Code.h, Code.h, Code.f, Code.f, Code.f, Code.f, Code.b, Code.f, Code.f, Code.f, Code.l, Code.l, Code.b, Code.h]) (by decide) (by decide)
      ⟨ht1, ht2, ht3, h_rear_attack_modifier, h_flank_attack_modifier, h_creatable_type, h_hero_mode, h_garrison_graphic, h_spawning_graphic, h_upgrade_graphic, h_hero_glow_graphic, h_max_charge, h_recharge_rate, h_charge_event, h_charge_type, h_min_conversion_time_mod, h_max_conversion_time_mod, h_conversion_chance_mod, h_total_projectiles, h_max_total_projectiles, h_projectile_spawning_area _ (by simp), h_projectile_spawning_area _ (by simp), h_projectile_spawning_area _ (by simp), h_secondary_projectile_unit, h_special_graphic, h_special_ability, h_displayed_pierce_armour, trivial⟩) ?_
      dsimp only [popInt, popFloat, popDone, List.map, List.cons_append, List.nil_append]
      exact RW.pure rfl

theorem Creatable.good (v : Version) :
    Good v Creatable.fromBytes (Creatable.WF v) (fun x bs => Creatable.toBytes v x = .ok bs) := by
  unfold Creatable.fromBytes Creatable.WF
  refine Good.getVersion ?_
  by_cases hv : 88 ≤ v.num
  · have hg : v.ge .VER_88 = true := (ge_iff _ _).2 hv
    have hv4 : 84 ≤ v.num := by omega
    rw [if_pos hg]
    unfold Creatable.fromBytes88
    refine Good.bind (Good.classArray3 (ResourceCost.good v)) fun resource_costs h_resource_costs => ?_
    refine Good.bind Good.int16 fun n hn => ?_
    refine Good.bind (Good.classArray _ (TrainLocation.good v)) fun train_locations h_train_locations => ?_
    refine Good.bind (Good.unpack (cs := [Code.f, Code.f, Code.b, Code.b, Code.l, Code.h, Code.h, Code.h, Code.h, Code.f, Code.f, Code.h, Code.h, Code.h, Code.l, Code.b, Code.f, Code.h, Code.l, Code.l, Code.h, Code.f, Code.f, Code.f, Code.f, Code.b, Code.f, Code.f, Code.f, Code.l, Code.l, Code.b, Code.h]) (by decide)) fun vs hm => ?_
    obtain ⟨rear_attack_modifier, vs, rfl, h_rear_attack_modifier, hm⟩ := hm.popF
    obtain ⟨flank_attack_modifier, vs, rfl, h_flank_attack_modifier, hm⟩ := hm.popF
    obtain ⟨creatable_type, vs, rfl, h_creatable_type, hm⟩ := hm.popB
    obtain ⟨hero_mode, vs, rfl, h_hero_mode, hm⟩ := hm.popB
    obtain ⟨garrison_graphic, vs, rfl, h_garrison_graphic, hm⟩ := hm.popL
    obtain ⟨spawning_graphic, vs, rfl, h_spawning_graphic, hm⟩ := hm.popH
    obtain ⟨upgrade_graphic, vs, rfl, h_upgrade_graphic, hm⟩ := hm.popH
    obtain ⟨hero_glow_graphic, vs, rfl, h_hero_glow_graphic, hm⟩ := hm.popH
    obtain ⟨idle_attack_graphic, vs, rfl, h_idle_attack_graphic, hm⟩ := hm.popH
    obtain ⟨max_charge, vs, rfl, h_max_charge, hm⟩ := hm.popF
    obtain ⟨recharge_rate, vs, rfl, h_recharge_rate, hm⟩ := hm.popF
    obtain ⟨charge_event, vs, rfl, h_charge_event, hm⟩ := hm.popH
    obtain ⟨charge_type, vs, rfl, h_charge_type, hm⟩ := hm.popH
    obtain ⟨charge_target, vs, rfl, h_charge_target, hm⟩ := hm.popH
    obtain ⟨charge_projectile_unit, vs, rfl, h_charge_projectile_unit, hm⟩ := hm.popL
    obtain ⟨attack_priority, vs, rfl, h_attack_priority, hm⟩ := hm.popB
    obtain ⟨invulnerability_level, vs, rfl, h_invulnerability_level, hm⟩ := hm.popF
    obtain ⟨button_icon_id, vs, rfl, h_button_icon_id, hm⟩ := hm.popH
    obtain ⟨button_short_tooltip_id, vs, rfl, h_button_short_tooltip_id, hm⟩ := hm.popL
    obtain ⟨button_extended_tooltip_id, vs, rfl, h_button_extended_tooltip_id, hm⟩ := hm.popL
    obtain ⟨button_hotkey_action, vs, rfl, h_button_hotkey_action, hm⟩ := hm.popH
    obtain ⟨min_conversion_time_mod, vs, rfl, h_min_conversion_time_mod, hm⟩ := hm.popF
    obtain ⟨max_conversion_time_mod, vs, rfl, h_max_conversion_time_mod, hm⟩ := hm.popF
    obtain ⟨conversion_chance_mod, vs, rfl, h_conversion_chance_mod, hm⟩ := hm.popF
    obtain ⟨total_projectiles, vs, rfl, h_total_projectiles, hm⟩ := hm.popF
    obtain ⟨max_total_projectiles, vs, rfl, h_max_total_projectiles, hm⟩ := hm.popB
    obtain ⟨projectile_spawning_area_1, vs, rfl, h_projectile_spawning_area_1, hm⟩ := hm.popF
    obtain ⟨projectile_spawning_area_2, vs, rfl, h_projectile_spawning_area_2, hm⟩ := hm.popF
    obtain ⟨projectile_spawning_area_3, vs, rfl, h_projectile_spawning_area_3, hm⟩ := hm.popF
    obtain ⟨secondary_projectile_unit, vs, rfl, h_secondary_projectile_unit, hm⟩ := hm.popL
    obtain ⟨special_graphic, vs, rfl, h_special_graphic, hm⟩ := hm.popL
    obtain ⟨special_ability, vs, rfl, h_special_ability, hm⟩ := hm.popB
    obtain ⟨displayed_pierce_armour, vs, rfl, h_displayed_pierce_armour, hm⟩ := hm.popH
    obtain rfl := hm.done
    dsimp only [popInt, popFloat, popDone]
    refine Good.pure ⟨h_resource_costs, since_pos hv (upTo_i16 hn h_train_locations), h_rear_attack_modifier, h_flank_attack_modifier, h_creatable_type, h_hero_mode, h_garrison_graphic, h_spawning_graphic, h_upgrade_graphic, h_hero_glow_graphic, since_pos hv4 h_idle_attack_graphic, h_max_charge, h_recharge_rate, h_charge_event, h_charge_type, since_pos hv4 h_charge_target, since_pos hv4 h_charge_projectile_unit, since_pos hv4 h_attack_priority, since_pos hv4 h_invulnerability_level, since_pos hv4 h_button_icon_id, since_pos hv4 h_button_short_tooltip_id, since_pos hv4 h_button_extended_tooltip_id, since_pos hv4 h_button_hotkey_action, h_min_conversion_time_mod, h_max_conversion_time_mod, h_conversion_chance_mod, h_total_projectiles, h_max_total_projectiles, ⟨rfl, by simp [AllOf, h_projectile_spawning_area_1, h_projectile_spawning_area_2, h_projectile_spawning_area_3]⟩, h_secondary_projectile_unit, h_special_graphic, h_special_ability, h_displayed_pierce_armour⟩ ?_
    rintro b3 k3 b2 ⟨rfl, k2⟩ b1 k1 b0 k0
    rw [Creatable.toBytes, if_pos hg, Creatable.toBytes88]
    exact joinB_cons_ok k0 (joinB_cons_ok k1 (joinB_cons_ok k2 (joinB_cons_ok k3 rfl)))
  · have hg := not_ge (w := .VER_88) hv
    rw [if_neg hg]
    by_cases hv4 : 84 ≤ v.num
    · have hg4 : v.ge .VER_84 = true := (ge_iff _ _).2 hv4
      rw [if_pos hg4]
      unfold Creatable.fromBytes84
      refine Good.bind (Good.classArray3 (ResourceCost.good v)) fun resource_costs h_resource_costs => ?_
      refine Good.bind (Good.unpack (cs := [Code.h, Code.h, Code.b, Code.f, Code.f, Code.b, Code.b, Code.l, Code.h, Code.h, Code.h, Code.h, Code.f, Code.f, Code.h, Code.h, Code.h, Code.l, Code.b, Code.f, Code.h, Code.l, Code.l, Code.h, Code.f, Code.f, Code.f, Code.f, Code.b, Code.f, Code.f, Code.f, Code.l, Code.l, Code.b, Code.h]) (by decide)) fun vs hm => ?_
      obtain ⟨train_time, vs, rfl, h_train_time, hm⟩ := hm.popH
      obtain ⟨train_location_id, vs, rfl, h_train_location_id, hm⟩ := hm.popH
      obtain ⟨button_id, vs, rfl, h_button_id, hm⟩ := hm.popB
      obtain ⟨rear_attack_modifier, vs, rfl, h_rear_attack_modifier, hm⟩ := hm.popF
      obtain ⟨flank_attack_modifier, vs, rfl, h_flank_attack_modifier, hm⟩ := hm.popF
      obtain ⟨creatable_type, vs, rfl, h_creatable_type, hm⟩ := hm.popB
      obtain ⟨hero_mode, vs, rfl, h_hero_mode, hm⟩ := hm.popB
      obtain ⟨garrison_graphic, vs, rfl, h_garrison_graphic, hm⟩ := hm.popL
      obtain ⟨spawning_graphic, vs, rfl, h_spawning_graphic, hm⟩ := hm.popH
      obtain ⟨upgrade_graphic, vs, rfl, h_upgrade_graphic, hm⟩ := hm.popH
      obtain ⟨hero_glow_graphic, vs, rfl, h_hero_glow_graphic, hm⟩ := hm.popH
      obtain ⟨idle_attack_graphic, vs, rfl, h_idle_attack_graphic, hm⟩ := hm.popH
      obtain ⟨max_charge, vs, rfl, h_max_charge, hm⟩ := hm.popF
      obtain ⟨recharge_rate, vs, rfl, h_recharge_rate, hm⟩ := hm.popF
      obtain ⟨charge_event, vs, rfl, h_charge_event, hm⟩ := hm.popH
      obtain ⟨charge_type, vs, rfl, h_charge_type, hm⟩ := hm.popH
      obtain ⟨charge_target, vs, rfl, h_charge_target, hm⟩ := hm.popH
      obtain ⟨charge_projectile_unit, vs, rfl, h_charge_projectile_unit, hm⟩ := hm.popL
      obtain ⟨attack_priority, vs, rfl, h_attack_priority, hm⟩ := hm.popB
      obtain ⟨invulnerability_level, vs, rfl, h_invulnerability_level, hm⟩ := hm.popF
      obtain ⟨button_icon_id, vs, rfl, h_button_icon_id, hm⟩ := hm.popH
      obtain ⟨button_short_tooltip_id, vs, rfl, h_button_short_tooltip_id, hm⟩ := hm.popL
      obtain ⟨button_extended_tooltip_id, vs, rfl, h_button_extended_tooltip_id, hm⟩ := hm.popL
      obtain ⟨button_hotkey_action, vs, rfl, h_button_hotkey_action, hm⟩ := hm.popH
      obtain ⟨min_conversion_time_mod, vs, rfl, h_min_conversion_time_mod, hm⟩ := hm.popF
      obtain ⟨max_conversion_time_mod, vs, rfl, h_max_conversion_time_mod, hm⟩ := hm.popF
      obtain ⟨conversion_chance_mod, vs, rfl, h_conversion_chance_mod, hm⟩ := hm.popF
      obtain ⟨total_projectiles, vs, rfl, h_total_projectiles, hm⟩ := hm.popF
      obtain ⟨max_total_projectiles, vs, rfl, h_max_total_projectiles, hm⟩ := hm.popB
      obtain ⟨projectile_spawning_area_1, vs, rfl, h_projectile_spawning_area_1, hm⟩ := hm.popF
      obtain ⟨projectile_spawning_area_2, vs, rfl, h_projectile_spawning_area_2, hm⟩ := hm.popF
      obtain ⟨projectile_spawning_area_3, vs, rfl, h_projectile_spawning_area_3, hm⟩ := hm.popF
      obtain ⟨secondary_projectile_unit, vs, rfl, h_secondary_projectile_unit, hm⟩ := hm.popL
      obtain ⟨special_graphic, vs, rfl, h_special_graphic, hm⟩ := hm.popL
      obtain ⟨special_ability, vs, rfl, h_special_ability, hm⟩ := hm.popB
      obtain ⟨displayed_pierce_armour, vs, rfl, h_displayed_pierce_armour, hm⟩ := hm.popH
      obtain rfl := hm.done
      dsimp only [popInt, popFloat, popDone]
      refine Good.pure ⟨h_resource_costs, since_neg hv ⟨_, rfl, h_train_time, h_train_location_id, h_button_id, rfl⟩, h_rear_attack_modifier, h_flank_attack_modifier, h_creatable_type, h_hero_mode, h_garrison_graphic, h_spawning_graphic, h_upgrade_graphic, h_hero_glow_graphic, since_pos hv4 h_idle_attack_graphic, h_max_charge, h_recharge_rate, h_charge_event, h_charge_type, since_pos hv4 h_charge_target, since_pos hv4 h_charge_projectile_unit, since_pos hv4 h_attack_priority, since_pos hv4 h_invulnerability_level, since_pos hv4 h_button_icon_id, since_pos hv4 h_button_short_tooltip_id, since_pos hv4 h_button_extended_tooltip_id, since_pos hv4 h_button_hotkey_action, h_min_conversion_time_mod, h_max_conversion_time_mod, h_conversion_chance_mod, h_total_projectiles, h_max_total_projectiles, ⟨rfl, by simp [AllOf, h_projectile_spawning_area_1, h_projectile_spawning_area_2, h_projectile_spawning_area_3]⟩, h_secondary_projectile_unit, h_special_graphic, h_special_ability, h_displayed_pierce_armour⟩ ?_
      rintro b1 k1 b0 k0
      rw [Creatable.toBytes, if_neg hg, if_pos hg4, Creatable.toBytes84]
      exact joinB_cons_ok k0 (joinB_cons_ok k1 rfl)
    · have hg4 := not_ge (w := .VER_84) hv4
      rw [if_neg hg4]
      unfold Creatable.fromBytes78
      refine Good.bind (Good.classArray3 (ResourceCost.good v)) fun resource_costs h_resource_costs => ?_
      refine Good.bind (Good.unpack (cs := [Code.h, Code.h, Code.b, Code.f, Code.f, Code.b, Code.b, Code.l, Code.h, Code.h, Code.h, Code.f, Code.f, Code.h, Code.h, Code.f, Code.f, Code.f, Code.f, Code.b, Code.f, Code.f, Code.f, Code.l, Code.l, Code.b, Code.h]) (by decide)) fun vs hm => ?_
      obtain ⟨train_time, vs, rfl, h_train_time, hm⟩ := hm.popH
      obtain ⟨train_location_id, vs, rfl, h_train_location_id, hm⟩ := hm.popH
      obtain ⟨button_id, vs, rfl, h_button_id, hm⟩ := hm.popB
      obtain ⟨rear_attack_modifier, vs, rfl, h_rear_attack_modifier, hm⟩ := hm.popF
      obtain ⟨flank_attack_modifier, vs, rfl, h_flank_attack_modifier, hm⟩ := hm.popF
      obtain ⟨creatable_type, vs, rfl, h_creatable_type, hm⟩ := hm.popB
      obtain ⟨hero_mode, vs, rfl, h_hero_mode, hm⟩ := hm.popB
      obtain ⟨garrison_graphic, vs, rfl, h_garrison_graphic, hm⟩ := hm.popL
      obtain ⟨spawning_graphic, vs, rfl, h_spawning_graphic, hm⟩ := hm.popH
      obtain ⟨upgrade_graphic, vs, rfl, h_upgrade_graphic, hm⟩ := hm.popH
      obtain ⟨hero_glow_graphic, vs, rfl, h_hero_glow_graphic, hm⟩ := hm.popH
      obtain ⟨max_charge, vs, rfl, h_max_charge, hm⟩ := hm.popF
      obtain ⟨recharge_rate, vs, rfl, h_recharge_rate, hm⟩ := hm.popF
      obtain ⟨charge_event, vs, rfl, h_charge_event, hm⟩ := hm.popH
      obtain ⟨charge_type, vs, rfl, h_charge_type, hm⟩ := hm.popH
      obtain ⟨min_conversion_time_mod, vs, rfl, h_min_conversion_time_mod, hm⟩ := hm.popF
      obtain ⟨max_conversion_time_mod, vs, rfl, h_max_conversion_time_mod, hm⟩ := hm.popF
      obtain ⟨conversion_chance_mod, vs, rfl, h_conversion_chance_mod, hm⟩ := hm.popF
      obtain ⟨total_projectiles, vs, rfl, h_total_projectiles, hm⟩ := hm.popF
      obtain ⟨max_total_projectiles, vs, rfl, h_max_total_projectiles, hm⟩ := hm.popB
      obtain ⟨projectile_spawning_area_1, vs, rfl, h_projectile_spawning_area_1, hm⟩ := hm.popF
      obtain ⟨projectile_spawning_area_2, vs, rfl, h_projectile_spawning_area_2, hm⟩ := hm.popF
      obtain ⟨projectile_spawning_area_3, vs, rfl, h_projectile_spawning_area_3, hm⟩ := hm.popF
      obtain ⟨secondary_projectile_unit, vs, rfl, h_secondary_projectile_unit, hm⟩ := hm.popL
      obtain ⟨special_graphic, vs, rfl, h_special_graphic, hm⟩ := hm.popL
      obtain ⟨special_ability, vs, rfl, h_special_ability, hm⟩ := hm.popB
      obtain ⟨displayed_pierce_armour, vs, rfl, h_displayed_pierce_armour, hm⟩ := hm.popH
      obtain rfl := hm.done
      dsimp only [popInt, popFloat, popDone]
      refine Good.pure ⟨h_resource_costs, since_neg hv ⟨_, rfl, h_train_time, h_train_location_id, h_button_id, rfl⟩, h_rear_attack_modifier, h_flank_attack_modifier, h_creatable_type, h_hero_mode, h_garrison_graphic, h_spawning_graphic, h_upgrade_graphic, h_hero_glow_graphic, since_neg hv4 rfl, h_max_charge, h_recharge_rate, h_charge_event, h_charge_type, since_neg hv4 rfl, since_neg hv4 rfl, since_neg hv4 rfl, since_neg hv4 rfl, since_neg hv4 rfl, since_neg hv4 rfl, since_neg hv4 rfl, since_neg hv4 rfl, h_min_conversion_time_mod, h_max_conversion_time_mod, h_conversion_chance_mod, h_total_projectiles, h_max_total_projectiles, ⟨rfl, by simp [AllOf, h_projectile_spawning_area_1, h_projectile_spawning_area_2, h_projectile_spawning_area_3]⟩, h_secondary_projectile_unit, h_special_graphic, h_special_ability, h_displayed_pierce_armour⟩ ?_
      rintro b1 k1 b0 k0
      rw [Creatable.toBytes, if_neg hg, if_neg hg4, Creatable.toBytes78]
      exact joinB_cons_ok k0 (joinB_cons_ok k1 rfl)

/-- Below 8.8 the encoding does not contain the hot key of the train location. -/
theorem Creatable.toBytes_withHotKey {v : Version} (hv : ¬ 88 ≤ v.num) (k : Int) {x : Creatable}
    (hx : x.train_locations ≠ []) : Creatable.toBytes v (x.withHotKey k) = Creatable.toBytes v x := by
  have hg := not_ge (w := .VER_88) hv
  cases x with
  | mk rc tl =>
    cases tl with
    | nil => exact absurd rfl hx
    | cons t ts =>
      simp only [Creatable.toBytes, if_neg hg, Creatable.withHotKey]
      rfl

theorem Creatable.WFWith.withHotKey {v : Version} (hv : ¬ 88 ≤ v.num) {k k' : Int} {x : Creatable}
    (h : Creatable.WFWith v k x) : Creatable.WFWith v k' (x.withHotKey k') := by
  obtain ⟨x_resource_costs, x_train_locations, x_rear_attack_modifier, x_flank_attack_modifier, x_creatable_type, x_hero_mode, x_garrison_graphic, x_spawning_graphic, x_upgrade_graphic, x_hero_glow_graphic, x_idle_attack_graphic, x_max_charge, x_recharge_rate, x_charge_event, x_charge_type, x_charge_target, x_charge_projectile_unit, x_attack_priority, x_invulnerability_level, x_button_icon_id, x_button_short_tooltip_id, x_button_extended_tooltip_id, x_button_hotkey_action, x_min_conversion_time_mod, x_max_conversion_time_mod, x_conversion_chance_mod, x_total_projectiles, x_max_total_projectiles, x_projectile_spawning_area, x_secondary_projectile_unit, x_special_graphic, x_special_ability, x_displayed_pierce_armour⟩ := x
  obtain ⟨h_resource_costs, h_train_locations, h_rear_attack_modifier, h_flank_attack_modifier, h_creatable_type, h_hero_mode, h_garrison_graphic, h_spawning_graphic, h_upgrade_graphic, h_hero_glow_graphic, h_idle_attack_graphic, h_max_charge, h_recharge_rate, h_charge_event, h_charge_type, h_charge_target, h_charge_projectile_unit, h_attack_priority, h_invulnerability_level, h_button_icon_id, h_button_short_tooltip_id, h_button_extended_tooltip_id, h_button_hotkey_action, h_min_conversion_time_mod, h_max_conversion_time_mod, h_conversion_chance_mod, h_total_projectiles, h_max_total_projectiles, h_projectile_spawning_area, h_secondary_projectile_unit, h_special_graphic, h_special_ability, h_displayed_pierce_armour⟩ := h
  obtain ⟨⟨t1, t2, t3, t4⟩, h1, ht1, ht2, ht3, ht4⟩ := h_train_locations.neg hv
  dsimp only at h1
  subst h1
  exact ⟨h_resource_costs, since_neg hv ⟨_, rfl, ht1, ht2, ht3, rfl⟩, h_rear_attack_modifier, h_flank_attack_modifier, h_creatable_type, h_hero_mode, h_garrison_graphic, h_spawning_graphic, h_upgrade_graphic, h_hero_glow_graphic, h_idle_attack_graphic, h_max_charge, h_recharge_rate, h_charge_event, h_charge_type, h_charge_target, h_charge_projectile_unit, h_attack_priority, h_invulnerability_level, h_button_icon_id, h_button_short_tooltip_id, h_button_extended_tooltip_id, h_button_hotkey_action, h_min_conversion_time_mod, h_max_conversion_time_mod, h_conversion_chance_mod, h_total_projectiles, h_max_total_projectiles, h_projectile_spawning_area, h_secondary_projectile_unit, h_special_graphic, h_special_ability, h_displayed_pierce_armour⟩

theorem Creatable.WFWith.of_ge {v : Version} (hv : 88 ≤ v.num) {k k' : Int} {x : Creatable}
    (h : Creatable.WFWith v k x) : Creatable.WFWith v k' x := by
  obtain ⟨h_resource_costs, h_train_locations, h_rear_attack_modifier, h_flank_attack_modifier, h_creatable_type, h_hero_mode, h_garrison_graphic, h_spawning_graphic, h_upgrade_graphic, h_hero_glow_graphic, h_idle_attack_graphic, h_max_charge, h_recharge_rate, h_charge_event, h_charge_type, h_charge_target, h_charge_projectile_unit, h_attack_priority, h_invulnerability_level, h_button_icon_id, h_button_short_tooltip_id, h_button_extended_tooltip_id, h_button_hotkey_action, h_min_conversion_time_mod, h_max_conversion_time_mod, h_conversion_chance_mod, h_total_projectiles, h_max_total_projectiles, h_projectile_spawning_area, h_secondary_projectile_unit, h_special_graphic, h_special_ability, h_displayed_pierce_armour⟩ := h
  exact ⟨h_resource_costs, since_pos hv (h_train_locations.pos hv), h_rear_attack_modifier, h_flank_attack_modifier, h_creatable_type, h_hero_mode, h_garrison_graphic, h_spawning_graphic, h_upgrade_graphic, h_hero_glow_graphic, h_idle_attack_graphic, h_max_charge, h_recharge_rate, h_charge_event, h_charge_type, h_charge_target, h_charge_projectile_unit, h_attack_priority, h_invulnerability_level, h_button_icon_id, h_button_short_tooltip_id, h_button_extended_tooltip_id, h_button_hotkey_action, h_min_conversion_time_mod, h_max_conversion_time_mod, h_conversion_chance_mod, h_total_projectiles, h_max_total_projectiles, h_projectile_spawning_area, h_secondary_projectile_unit, h_special_graphic, h_special_ability, h_displayed_pierce_armour⟩

theorem Creatable.WFWith.withHotKey_self {v : Version} (hv : ¬ 88 ≤ v.num) {k k' : Int} {x : Creatable}
    (h : Creatable.WFWith v k x) : (x.withHotKey k').withHotKey k = x := by
  obtain ⟨⟨t1, t2, t3, t4⟩, h1, -, -, -, ht4⟩ := h.train_locations.neg hv
  dsimp only at ht4
  subst ht4
  obtain ⟨x_resource_costs, x_train_locations, x_rear_attack_modifier, x_flank_attack_modifier, x_creatable_type, x_hero_mode, x_garrison_graphic, x_spawning_graphic, x_upgrade_graphic, x_hero_glow_graphic, x_idle_attack_graphic, x_max_charge, x_recharge_rate, x_charge_event, x_charge_type, x_charge_target, x_charge_projectile_unit, x_attack_priority, x_invulnerability_level, x_button_icon_id, x_button_short_tooltip_id, x_button_extended_tooltip_id, x_button_hotkey_action, x_min_conversion_time_mod, x_max_conversion_time_mod, x_conversion_chance_mod, x_total_projectiles, x_max_total_projectiles, x_projectile_spawning_area, x_secondary_projectile_unit, x_special_graphic, x_special_ability, x_displayed_pierce_armour⟩ := x
  dsimp only at h1
  subst h1
  rfl

theorem Creatable.WFWith.nonempty {v : Version} (hv : ¬ 88 ≤ v.num) {k : Int} {x : Creatable}
    (h : Creatable.WFWith v k x) : x.train_locations ≠ [] := by
  obtain ⟨t, h1, -⟩ := h.train_locations.neg hv
  rw [h1]; simp

/-- Below 8.8: reading back gives the default hot key 16000, whatever the hot key was. -/
theorem Creatable.rwWith {v : Version} (hv : ¬ 88 ≤ v.num) {k : Int} {x : Creatable}
    (h : Creatable.WFWith v k x) :
    RW v Creatable.fromBytes (Creatable.toBytes v x) (x.withHotKey 16000) := by
  have := Creatable.rw (h.withHotKey hv (k' := 16000))
  rwa [Creatable.toBytes_withHotKey hv 16000 (h.nonempty hv)] at this

end Genie
