import Verif.Proof.Edits.Basic
/-! # Struct-packed blocks, item by item (generated by `tools/gen_edit_fields.py`) -/

namespace Genie
open Layout
set_option linter.unusedVariables false
set_option linter.unusedSimpArgs false

theorem block_flat (fmt : String) (cs : List Code) (vs : List Val) (h : codes fmt = cs) (hl : cs.length = vs.length) :
    block fmt vs = List.flatten ([.requires true .structError] :: List.zipWith (fun c v => [Item.packed c v]) cs vs) := by
  unfold block requires
  rw [h]
  simp only [hl, decide_true, if_true, List.flatten_cons, List.cons_append, List.nil_append, List.cons.injEq, true_and]
  clear h hl
  induction cs generalizing vs with
  | nil => simp
  | cons c cs ih => cases vs with
    | nil => simp
    | cons v vs => simp [ih]

theorem flatten_inner (a : List (List Item)) (r : List (List Item)) : List.flatten (List.flatten a :: r) = List.flatten (a ++ r) := by
  simp

theorem flatten_append' (a : List (List Item)) (b : List Item) : List.flatten a ++ b = List.flatten (a ++ [b]) := by
  simp

theorem codes_0 : codes "hfb" = [.h, .f, .b] := by decide +kernel

theorem ResourceStorage.layout_flat (v : Version) (x : ResourceStorage) : x.layout v = List.flatten [
    [.requires true .structError],
    [.packed .h (.int x.type)],
    [.packed .f (.float x.amount)],
    [.packed .b (.int x.flag)]] := by
  unfold ResourceStorage.layout
  exact (block_flat _ _ _ codes_0 rfl).trans rfl

theorem codes_1 : codes "hhb" = [.h, .h, .b] := by decide +kernel

theorem DamageGraphic.layout_flat (v : Version) (x : DamageGraphic) : x.layout v = List.flatten [
    [.requires true .structError],
    [.packed .h (.int x.graphic_id)],
    [.packed .h (.int x.damage_percent)],
    [.packed .b (.int x.apply_mode)]] := by
  unfold DamageGraphic.layout
  exact (block_flat _ _ _ codes_1 rfl).trans rfl

theorem codes_2 : codes "hhfbhbfbffffff" = [.h, .h, .f, .b, .h, .b, .f, .b, .f, .f, .f, .f, .f, .f] := by decide +kernel

theorem DeadFish.layout_flat (v : Version) (x : DeadFish) : x.layout v = List.flatten [
    [.requires true .structError],
    [.packed .h (.int x.walking_graphic)],
    [.packed .h (.int x.running_graphic)],
    [.packed .f (.float x.rotation_speed)],
    [.packed .b (.int x.old_size_class)],
    [.packed .h (.int x.tracking_unit)],
    [.packed .b (.int x.tracking_unit_mode)],
    [.packed .f (.float x.tracking_unit_density)],
    [.packed .b (.int x.old_move_algorithm)],
    [.packed .f (.float x.turn_radius)],
    [.packed .f (.float x.turn_radius_speed)],
    [.packed .f (.float x.max_yaw_per_second_moving)],
    [.packed .f (.float x.stationary_yaw_revolution_time)],
    [.packed .f (.float x.max_yaw_per_second_stationary)],
    [.packed .f (.float x.min_collision_size_multiplier)]] := by
  unfold DeadFish.layout
  exact (block_flat _ _ _ codes_2 rfl).trans rfl

theorem codes_3 : codes "hh" = [.h, .h] := by decide +kernel

theorem AttackOrArmor.layout_flat (v : Version) (x : AttackOrArmor) : x.layout v = List.flatten [
    [.requires true .structError],
    [.packed .h (.int x.class_)],
    [.packed .h (.int x.amount)]] := by
  unfold AttackOrArmor.layout
  exact (block_flat _ _ _ codes_3 rfl).trans rfl

theorem codes_4 : codes "bbbbbf" = [.b, .b, .b, .b, .b, .f] := by decide +kernel

theorem Projectile.layout_flat (v : Version) (x : Projectile) : x.layout v = List.flatten [
    [.requires true .structError],
    [.packed .b (.int x.projectile_type)],
    [.packed .b (.int x.smart_mode)],
    [.packed .b (.int x.hit_mode)],
    [.packed .b (.int x.vanish_mode)],
    [.packed .b (.int x.area_effect_specials)],
    [.packed .f (.float x.projectile_arc)]] := by
  unfold Projectile.layout
  exact (block_flat _ _ _ codes_4 rfl).trans rfl

theorem codes_5 : codes "hhh" = [.h, .h, .h] := by decide +kernel

theorem ResourceCost.layout_flat (v : Version) (x : ResourceCost) : x.layout v = List.flatten [
    [.requires true .structError],
    [.packed .h (.int x.type)],
    [.packed .h (.int x.amount)],
    [.packed .h (.int x.flag)]] := by
  unfold ResourceCost.layout
  exact (block_flat _ _ _ codes_5 rfl).trans rfl

theorem codes_6 : codes "hff" = [.h, .f, .f] := by decide +kernel

theorem BuildingAnnex.layout_flat (v : Version) (x : BuildingAnnex) : x.layout v = List.flatten [
    [.requires true .structError],
    [.packed .h (.int x.unit_id)],
    [.packed .f (.float x.misplacement_x)],
    [.packed .f (.float x.misplacement_y)]] := by
  unfold BuildingAnnex.layout
  exact (block_flat _ _ _ codes_6 rfl).trans rfl

theorem codes_7 : codes "hhbhhhhhhhhfffbfbbhhbbbhhhhhhllh" = [.h, .h, .b, .h, .h, .h, .h, .h, .h, .h, .h, .f, .f, .f, .b, .f, .b, .b, .h, .h, .b, .b, .b, .h, .h, .h, .h, .h, .h, .l, .l, .h] := by decide +kernel

theorem Task.layout_flat88 (v : Version) (x : Task) (hv : 88 ≤ v.num) : x.layout v = List.flatten [
    [.requires true .structError],
    [.packed .h (.int x.task_type)],
    [.packed .h (.int x.id)],
    [.packed .b (.int x.is_default)],
    [.packed .h (.int x.action_type)],
    [.packed .h (.int x.class_id)],
    [.packed .h (.int x.unit_id)],
    [.packed .h (.int x.terrain_id)],
    [.packed .h (.int x.resource_in)],
    [.packed .h (.int x.resource_multiplier)],
    [.packed .h (.int x.resource_out)],
    [.packed .h (.int x.unused_resource)],
    [.packed .f (.float x.work_value_1)],
    [.packed .f (.float x.work_value_2)],
    [.packed .f (.float x.work_range)],
    [.packed .b (.int x.auto_search_targets)],
    [.packed .f (.float x.search_wait_time)],
    [.packed .b (.int x.enable_targeting)],
    [.packed .b (.int x.combat_level_flag)],
    [.packed .h (.int x.gather_type)],
    [.packed .h (.int x.work_flag_2)],
    [.packed .b (.int x.target_diplomacy)],
    [.packed .b (.int x.carry_check)],
    [.packed .b (.int x.pick_for_construction)],
    [.packed .h (.int x.moving_graphic_id)],
    [.packed .h (.int x.proceeding_graphic_id)],
    [.packed .h (.int x.working_graphic_id)],
    [.packed .h (.int x.carrying_graphic_id)],
    [.packed .h (.int x.resource_gathering_sound_id)],
    [.packed .h (.int x.resource_deposit_sound_id)],
    [.packed .l (.int x.wwise_resource_gathering_sound_id)],
    [.packed .l (.int x.wwise_resource_deposit_sound_id)],
    [.packed .h (.int x.enabled)]] := by
  unfold Task.layout
  simp only [if_pos hv]
  exact (block_flat _ _ _ codes_7 rfl).trans rfl

theorem codes_8 : codes "hhbhhhhhhhhfffbfbbhhbbbhhhhhhll" = [.h, .h, .b, .h, .h, .h, .h, .h, .h, .h, .h, .f, .f, .f, .b, .f, .b, .b, .h, .h, .b, .b, .b, .h, .h, .h, .h, .h, .h, .l, .l] := by decide +kernel

theorem Task.layout_flat84 (v : Version) (x : Task) (hv : ¬ 88 ≤ v.num) : x.layout v = List.flatten [
    [.requires true .structError],
    [.packed .h (.int x.task_type)],
    [.packed .h (.int x.id)],
    [.packed .b (.int x.is_default)],
    [.packed .h (.int x.action_type)],
    [.packed .h (.int x.class_id)],
    [.packed .h (.int x.unit_id)],
    [.packed .h (.int x.terrain_id)],
    [.packed .h (.int x.resource_in)],
    [.packed .h (.int x.resource_multiplier)],
    [.packed .h (.int x.resource_out)],
    [.packed .h (.int x.unused_resource)],
    [.packed .f (.float x.work_value_1)],
    [.packed .f (.float x.work_value_2)],
    [.packed .f (.float x.work_range)],
    [.packed .b (.int x.auto_search_targets)],
    [.packed .f (.float x.search_wait_time)],
    [.packed .b (.int x.enable_targeting)],
    [.packed .b (.int x.combat_level_flag)],
    [.packed .h (.int x.gather_type)],
    [.packed .h (.int x.work_flag_2)],
    [.packed .b (.int x.target_diplomacy)],
    [.packed .b (.int x.carry_check)],
    [.packed .b (.int x.pick_for_construction)],
    [.packed .h (.int x.moving_graphic_id)],
    [.packed .h (.int x.proceeding_graphic_id)],
    [.packed .h (.int x.working_graphic_id)],
    [.packed .h (.int x.carrying_graphic_id)],
    [.packed .h (.int x.resource_gathering_sound_id)],
    [.packed .h (.int x.resource_deposit_sound_id)],
    [.packed .l (.int x.wwise_resource_gathering_sound_id)],
    [.packed .l (.int x.wwise_resource_deposit_sound_id)]] := by
  unfold Task.layout
  simp only [if_neg hv]
  exact (block_flat _ _ _ codes_8 rfl).trans rfl

theorem codes_9 : codes "hhbl" = [.h, .h, .b, .l] := by decide +kernel

theorem TrainLocation.layout_flat88 (v : Version) (x : TrainLocation) (hv : 88 ≤ v.num) : x.layout v = List.flatten [
    [.requires true .structError],
    [.packed .h (.int x.train_time)],
    [.packed .h (.int x.unit_id)],
    [.packed .b (.int x.button_id)],
    [.packed .l (.int x.hot_key_id)]] := by
  unfold TrainLocation.layout
  simp only [if_pos hv]
  exact (block_flat _ _ _ codes_9 rfl).trans rfl

theorem TrainLocation.layout_flat84 (v : Version) (x : TrainLocation) (hv : ¬ 88 ≤ v.num) : x.layout v = List.flatten [
    [.requires true .structError],
    [.packed .h (.int x.train_time)],
    [.packed .h (.int x.unit_id)],
    [.packed .b (.int x.button_id)]] := by
  unfold TrainLocation.layout
  simp only [if_neg hv]
  exact (block_flat _ _ _ codes_1 rfl).trans rfl

theorem codes_10 : codes "hhhhhhbhbhhhhb" = [.h, .h, .h, .h, .h, .h, .b, .h, .b, .h, .h, .h, .h, .b] := by decide +kernel

theorem codes_11 : codes "hhhhllbffhbbbbbb" = [.h, .h, .h, .h, .l, .l, .b, .f, .f, .h, .b, .b, .b, .b, .b, .b] := by decide +kernel

theorem Building.layout_flat (v : Version) (x : Building) (l0 l1 l2 l3 l4 l5 : Int) (hl : x.looting_table = [l0, l1, l2, l3, l4, l5]) : x.layout v = List.flatten [
    [.requires true .structError],
    [.packed .h (.int x.construction_graphic_id)],
    [.packed .h (.int x.snow_graphic_id)],
    [.packed .h (.int x.destruction_graphic_id)],
    [.packed .h (.int x.destruction_rubble_graphic_id)],
    [.packed .h (.int x.researching_graphic)],
    [.packed .h (.int x.research_completed_graphic)],
    [.packed .b (.int x.adjacent_mode)],
    [.packed .h (.int x.graphics_angle)],
    [.packed .b (.int x.disappears_when_built)],
    [.packed .h (.int x.stack_unit_id)],
    [.packed .h (.int x.foundation_terrain_id)],
    [.packed .h (.int x.old_overlap_id)],
    [.packed .h (.int x.tech_id)],
    [.packed .b (.int x.can_burn)],
    each (BuildingAnnex.layout v) x.annexes,
    [.requires true .structError],
    [.packed .h (.int x.head_unit)],
    [.packed .h (.int x.transform_unit)],
    [.packed .h (.int x.transform_sound)],
    [.packed .h (.int x.construction_sound)],
    [.packed .l (.int x.wwise_transform_sound_id)],
    [.packed .l (.int x.wwise_construction_sound_id)],
    [.packed .b (.int x.garrison_type)],
    [.packed .f (.float x.garrison_heal_rate)],
    [.packed .f (.float x.garrison_repair_rate)],
    [.packed .h (.int x.pile_unit)],
    [.packed .b (.int l0)],
    [.packed .b (.int l1)],
    [.packed .b (.int l2)],
    [.packed .b (.int l3)],
    [.packed .b (.int l4)],
    [.packed .b (.int l5)]] := by
  unfold Building.layout
  rw [hl]
  rw [(block_flat _ _ _ codes_10 rfl), (block_flat _ _ _ codes_11 rfl), flatten_inner]
  simp only [List.zipWith_cons_cons, List.zipWith_nil_left, List.map_cons, List.map_nil, List.cons_append, List.nil_append, List.flatten_cons, List.flatten_nil, List.append_assoc, List.append_nil]

theorem codes_12 : codes "ffbblhhhhffhhhlbfhllhffffbfffllbh" = [.f, .f, .b, .b, .l, .h, .h, .h, .h, .f, .f, .h, .h, .h, .l, .b, .f, .h, .l, .l, .h, .f, .f, .f, .f, .b, .f, .f, .f, .l, .l, .b, .h] := by decide +kernel

theorem Creatable.layout_flat88 (v : Version) (x : Creatable) (a0 a1 a2 : PyFloat) (ha : x.projectile_spawning_area = [a0, a1, a2]) (hv : 88 ≤ v.num) :
    x.layout v = List.flatten [
    each (ResourceCost.layout v) x.resource_costs,
    countI16 x.train_locations,
    each (TrainLocation.layout v) x.train_locations,
    [.requires true .structError],
    [.packed .f (.float x.rear_attack_modifier)],
    [.packed .f (.float x.flank_attack_modifier)],
    [.packed .b (.int x.creatable_type)],
    [.packed .b (.int x.hero_mode)],
    [.packed .l (.int x.garrison_graphic)],
    [.packed .h (.int x.spawning_graphic)],
    [.packed .h (.int x.upgrade_graphic)],
    [.packed .h (.int x.hero_glow_graphic)],
    [.packed .h (.int x.idle_attack_graphic)],
    [.packed .f (.float x.max_charge)],
    [.packed .f (.float x.recharge_rate)],
    [.packed .h (.int x.charge_event)],
    [.packed .h (.int x.charge_type)],
    [.packed .h (.int x.charge_target)],
    [.packed .l (.int x.charge_projectile_unit)],
    [.packed .b (.int x.attack_priority)],
    [.packed .f (.float x.invulnerability_level)],
    [.packed .h (.int x.button_icon_id)],
    [.packed .l (.int x.button_short_tooltip_id)],
    [.packed .l (.int x.button_extended_tooltip_id)],
    [.packed .h (.int x.button_hotkey_action)],
    [.packed .f (.float x.min_conversion_time_mod)],
    [.packed .f (.float x.max_conversion_time_mod)],
    [.packed .f (.float x.conversion_chance_mod)],
    [.packed .f (.float x.total_projectiles)],
    [.packed .b (.int x.max_total_projectiles)],
    [.packed .f (.float a0)],
    [.packed .f (.float a1)],
    [.packed .f (.float a2)],
    [.packed .l (.int x.secondary_projectile_unit)],
    [.packed .l (.int x.special_graphic)],
    [.packed .b (.int x.special_ability)],
    [.packed .h (.int x.displayed_pierce_armour)]] := by
  unfold Creatable.layout
  simp only [if_pos hv, ha]
  rw [(block_flat _ _ _ codes_12 rfl)]
  simp only [List.zipWith_cons_cons, List.zipWith_nil_left, List.map_cons, List.map_nil, List.cons_append, List.nil_append, List.flatten_cons, List.flatten_nil, List.append_assoc, List.append_nil]

theorem codes_13 : codes "hhbffbblhhhhffhhhlbfhllhffffbfffllbh" = [.h, .h, .b, .f, .f, .b, .b, .l, .h, .h, .h, .h, .f, .f, .h, .h, .h, .l, .b, .f, .h, .l, .l, .h, .f, .f, .f, .f, .b, .f, .f, .f, .l, .l, .b, .h] := by decide +kernel

theorem Creatable.layout_flat84 (v : Version) (x : Creatable) (a0 a1 a2 : PyFloat) (ha : x.projectile_spawning_area = [a0, a1, a2]) (hv : ¬ 88 ≤ v.num) (hw : 84 ≤ v.num) (t : TrainLocation) (ht : x.train_locations = [t]) :
    x.layout v = List.flatten [
    each (ResourceCost.layout v) x.resource_costs,
    [.requires true .structError],
    [.packed .h (.int t.train_time)],
    [.packed .h (.int t.unit_id)],
    [.packed .b (.int t.button_id)],
    [.packed .f (.float x.rear_attack_modifier)],
    [.packed .f (.float x.flank_attack_modifier)],
    [.packed .b (.int x.creatable_type)],
    [.packed .b (.int x.hero_mode)],
    [.packed .l (.int x.garrison_graphic)],
    [.packed .h (.int x.spawning_graphic)],
    [.packed .h (.int x.upgrade_graphic)],
    [.packed .h (.int x.hero_glow_graphic)],
    [.packed .h (.int x.idle_attack_graphic)],
    [.packed .f (.float x.max_charge)],
    [.packed .f (.float x.recharge_rate)],
    [.packed .h (.int x.charge_event)],
    [.packed .h (.int x.charge_type)],
    [.packed .h (.int x.charge_target)],
    [.packed .l (.int x.charge_projectile_unit)],
    [.packed .b (.int x.attack_priority)],
    [.packed .f (.float x.invulnerability_level)],
    [.packed .h (.int x.button_icon_id)],
    [.packed .l (.int x.button_short_tooltip_id)],
    [.packed .l (.int x.button_extended_tooltip_id)],
    [.packed .h (.int x.button_hotkey_action)],
    [.packed .f (.float x.min_conversion_time_mod)],
    [.packed .f (.float x.max_conversion_time_mod)],
    [.packed .f (.float x.conversion_chance_mod)],
    [.packed .f (.float x.total_projectiles)],
    [.packed .b (.int x.max_total_projectiles)],
    [.packed .f (.float a0)],
    [.packed .f (.float a1)],
    [.packed .f (.float a2)],
    [.packed .l (.int x.secondary_projectile_unit)],
    [.packed .l (.int x.special_graphic)],
    [.packed .b (.int x.special_ability)],
    [.packed .h (.int x.displayed_pierce_armour)]] := by
  unfold Creatable.layout
  simp only [if_neg hv, if_pos hw, ht, ha]
  rw [(block_flat _ _ _ codes_13 rfl)]
  simp only [List.zipWith_cons_cons, List.zipWith_nil_left, List.map_cons, List.map_nil, List.cons_append, List.nil_append, List.flatten_cons, List.flatten_nil, List.append_assoc, List.append_nil]

theorem codes_14 : codes "hhbffbblhhhffhhffffbfffllbh" = [.h, .h, .b, .f, .f, .b, .b, .l, .h, .h, .h, .f, .f, .h, .h, .f, .f, .f, .f, .b, .f, .f, .f, .l, .l, .b, .h] := by decide +kernel

theorem Creatable.layout_flat77 (v : Version) (x : Creatable) (a0 a1 a2 : PyFloat) (ha : x.projectile_spawning_area = [a0, a1, a2]) (hv : ¬ 88 ≤ v.num) (hw : ¬ 84 ≤ v.num) (t : TrainLocation) (ht : x.train_locations = [t]) :
    x.layout v = List.flatten [
    each (ResourceCost.layout v) x.resource_costs,
    [.requires true .structError],
    [.packed .h (.int t.train_time)],
    [.packed .h (.int t.unit_id)],
    [.packed .b (.int t.button_id)],
    [.packed .f (.float x.rear_attack_modifier)],
    [.packed .f (.float x.flank_attack_modifier)],
    [.packed .b (.int x.creatable_type)],
    [.packed .b (.int x.hero_mode)],
    [.packed .l (.int x.garrison_graphic)],
    [.packed .h (.int x.spawning_graphic)],
    [.packed .h (.int x.upgrade_graphic)],
    [.packed .h (.int x.hero_glow_graphic)],
    [.packed .f (.float x.max_charge)],
    [.packed .f (.float x.recharge_rate)],
    [.packed .h (.int x.charge_event)],
    [.packed .h (.int x.charge_type)],
    [.packed .f (.float x.min_conversion_time_mod)],
    [.packed .f (.float x.max_conversion_time_mod)],
    [.packed .f (.float x.conversion_chance_mod)],
    [.packed .f (.float x.total_projectiles)],
    [.packed .b (.int x.max_total_projectiles)],
    [.packed .f (.float a0)],
    [.packed .f (.float a1)],
    [.packed .f (.float a2)],
    [.packed .l (.int x.secondary_projectile_unit)],
    [.packed .l (.int x.special_graphic)],
    [.packed .b (.int x.special_ability)],
    [.packed .h (.int x.displayed_pierce_armour)]] := by
  unfold Creatable.layout
  simp only [if_neg hv, if_neg hw, ht, ha]
  rw [(block_flat _ _ _ codes_14 rfl)]
  simp only [List.zipWith_cons_cons, List.zipWith_nil_left, List.map_cons, List.map_nil, List.cons_append, List.nil_append, List.flatten_cons, List.flatten_nil, List.append_assoc, List.append_nil]

theorem codes_15 : codes "bhllhhhhhbhfbfffhhhhbbhbhbbhhhhffbbhbhfbbbbbfbllbbbbbbbbbhbbfffll" = [.b, .h, .l, .l, .h, .h, .h, .h, .h, .b, .h, .f, .b, .f, .f, .f, .h, .h, .h, .h, .b, .b, .h, .b, .h, .b, .b, .h, .h, .h, .h, .f, .f, .b, .b, .h, .b, .h, .f, .b, .b, .b, .b, .b, .f, .b, .l, .l, .b, .b, .b, .b, .b, .b, .b, .b, .b, .h, .b, .b, .f, .f, .f, .l, .l] := by decide +kernel

theorem Unit.layout_flat88 (v : Version) (x : Unit) (s0 s1 p0 p1 q0 q1 : Int) (c0 c1 : PyFloat)
    (hs : x.standing_graphic = [s0, s1]) (hp : x.placement_side_terrain = [p0, p1]) (hq : x.placement_terrain = [q0, q1])
    (hc : x.clearance_size = [c0, c1]) (hv : 88 ≤ v.num) :
    x.layout v = List.flatten [
    [.requires true .structError],
    [.packed .b (.int x.type)],
    [.packed .h (.int x.id)],
    [.packed .l (.int x.language_dll_name)],
    [.packed .l (.int x.language_dll_creation)],
    [.packed .h (.int x.class_)],
    [.packed .h (.int s0)],
    [.packed .h (.int s1)],
    [.packed .h (.int x.dying_graphic)],
    [.packed .h (.int x.undead_graphic)],
    [.packed .b (.int x.undead_mode)],
    [.packed .h (.int x.hit_points)],
    [.packed .f (.float x.line_of_sight)],
    [.packed .b (.int x.garrison_capacity)],
    [.packed .f (.float x.collision_size_x)],
    [.packed .f (.float x.collision_size_y)],
    [.packed .f (.float x.collision_size_z)],
    [.packed .h (.int x.train_sound)],
    [.packed .h (.int x.damage_sound)],
    [.packed .h (.int x.dead_unit_id)],
    [.packed .h (.int x.blood_unit_id)],
    [.packed .b (.int x.sort_number)],
    [.packed .b (.int x.can_be_built_on)],
    [.packed .h (.int x.icon_id)],
    [.packed .b (.int x.hide_in_editor)],
    [.packed .h (.int x.old_portrait_pict)],
    [.packed .b (.int x.enabled)],
    [.packed .b (.int x.disabled)],
    [.packed .h (.int p0)],
    [.packed .h (.int p1)],
    [.packed .h (.int q0)],
    [.packed .h (.int q1)],
    [.packed .f (.float c0)],
    [.packed .f (.float c1)],
    [.packed .b (.int x.hill_mode)],
    [.packed .b (.int x.fog_visibility)],
    [.packed .h (.int x.terrain_restriction)],
    [.packed .b (.int x.fly_mode)],
    [.packed .h (.int x.resource_capacity)],
    [.packed .f (.float x.resource_decay)],
    [.packed .b (.int x.blast_defense_level)],
    [.packed .b (.int x.combat_level)],
    [.packed .b (.int x.interaction_mode)],
    [.packed .b (.int x.minimap_mode)],
    [.packed .b (.int x.interface_kind)],
    [.packed .f (.float x.multiple_attribute_mode)],
    [.packed .b (.int x.minimap_color)],
    [.packed .l (.int x.language_dll_help)],
    [.packed .l (.int x.language_dll_hotkey_text)],
    [.packed .b (.int x.recyclable)],
    [.packed .b (.int x.enable_auto_gather)],
    [.packed .b (.int x.create_doppelganger_on_death)],
    [.packed .b (.int x.resource_gather_group)],
    [.packed .b (.int x.occlusion_mode)],
    [.packed .b (.int x.obstruction_type)],
    [.packed .b (.int x.obstruction_class)],
    [.packed .b (.int x.trait)],
    [.packed .b (.int x.civilization)],
    [.packed .h (.int x.nothing)],
    [.packed .b (.int x.selection_effect)],
    [.packed .b (.int x.editor_selection_colour)],
    [.packed .f (.float x.outline_size_x)],
    [.packed .f (.float x.outline_size_y)],
    [.packed .f (.float x.outline_size_z)],
    [.packed .l (.int x.scenario_triggers_1)],
    [.packed .l (.int x.scenario_triggers_2)],
    each (ResourceStorage.layout v) x.resource_storages,
    countU8 x.damage_graphics,
    each (DamageGraphic.layout v) x.damage_graphics,
    i16 x.selection_sound,
    i16 x.dying_sound,
    i32 x.wwise_train_sound_id,
    i32 x.wwise_damage_sound_id,
    i32 x.wwise_selection_sound_id,
    i32 x.wwise_dying_sound_id,
    u8 x.old_attack_reaction,
    u8 x.convert_terrain,
    text x.name,
    i16 x.copy_id,
    i16 x.base_id,
    partFrom x.type 20 f32 x.speed,
    partFrom x.type 30 (DeadFish.layout v) x.dead_fish,
    partFrom x.type 40 (Bird.layout v) x.bird,
    partFrom x.type 50 (Type50.layout v) x.type_50,
    partOf x.type 60 (Projectile.layout v) x.projectile,
    partFrom x.type 70 (Creatable.layout v) x.creatable,
    partOf x.type 80 (Building.layout v) x.building] := by
  rw [Unit.layout_eq]
  simp only [if_pos hv, hs, hp, hq, hc]
  rw [(block_flat _ _ _ codes_15 rfl), flatten_inner]
  rfl

theorem codes_16 : codes "bhllhhhhhbhfbfffhhhhbbhbhbbhhhhffbbhbhfbbbbbfblllbbbbbbbbbhbbfffll" = [.b, .h, .l, .l, .h, .h, .h, .h, .h, .b, .h, .f, .b, .f, .f, .f, .h, .h, .h, .h, .b, .b, .h, .b, .h, .b, .b, .h, .h, .h, .h, .f, .f, .b, .b, .h, .b, .h, .f, .b, .b, .b, .b, .b, .f, .b, .l, .l, .l, .b, .b, .b, .b, .b, .b, .b, .b, .b, .h, .b, .b, .f, .f, .f, .l, .l] := by decide +kernel

theorem Unit.layout_flat84 (v : Version) (x : Unit) (s0 s1 p0 p1 q0 q1 : Int) (c0 c1 : PyFloat)
    (hs : x.standing_graphic = [s0, s1]) (hp : x.placement_side_terrain = [p0, p1]) (hq : x.placement_terrain = [q0, q1])
    (hc : x.clearance_size = [c0, c1]) (hv : ¬ 88 ≤ v.num) :
    x.layout v = List.flatten [
    [.requires true .structError],
    [.packed .b (.int x.type)],
    [.packed .h (.int x.id)],
    [.packed .l (.int x.language_dll_name)],
    [.packed .l (.int x.language_dll_creation)],
    [.packed .h (.int x.class_)],
    [.packed .h (.int s0)],
    [.packed .h (.int s1)],
    [.packed .h (.int x.dying_graphic)],
    [.packed .h (.int x.undead_graphic)],
    [.packed .b (.int x.undead_mode)],
    [.packed .h (.int x.hit_points)],
    [.packed .f (.float x.line_of_sight)],
    [.packed .b (.int x.garrison_capacity)],
    [.packed .f (.float x.collision_size_x)],
    [.packed .f (.float x.collision_size_y)],
    [.packed .f (.float x.collision_size_z)],
    [.packed .h (.int x.train_sound)],
    [.packed .h (.int x.damage_sound)],
    [.packed .h (.int x.dead_unit_id)],
    [.packed .h (.int x.blood_unit_id)],
    [.packed .b (.int x.sort_number)],
    [.packed .b (.int x.can_be_built_on)],
    [.packed .h (.int x.icon_id)],
    [.packed .b (.int x.hide_in_editor)],
    [.packed .h (.int x.old_portrait_pict)],
    [.packed .b (.int x.enabled)],
    [.packed .b (.int x.disabled)],
    [.packed .h (.int p0)],
    [.packed .h (.int p1)],
    [.packed .h (.int q0)],
    [.packed .h (.int q1)],
    [.packed .f (.float c0)],
    [.packed .f (.float c1)],
    [.packed .b (.int x.hill_mode)],
    [.packed .b (.int x.fog_visibility)],
    [.packed .h (.int x.terrain_restriction)],
    [.packed .b (.int x.fly_mode)],
    [.packed .h (.int x.resource_capacity)],
    [.packed .f (.float x.resource_decay)],
    [.packed .b (.int x.blast_defense_level)],
    [.packed .b (.int x.combat_level)],
    [.packed .b (.int x.interaction_mode)],
    [.packed .b (.int x.minimap_mode)],
    [.packed .b (.int x.interface_kind)],
    [.packed .f (.float x.multiple_attribute_mode)],
    [.packed .b (.int x.minimap_color)],
    [.packed .l (.int x.language_dll_help)],
    [.packed .l (.int x.language_dll_hotkey_text)],
    [.packed .l (.int x.hot_key)],
    [.packed .b (.int x.recyclable)],
    [.packed .b (.int x.enable_auto_gather)],
    [.packed .b (.int x.create_doppelganger_on_death)],
    [.packed .b (.int x.resource_gather_group)],
    [.packed .b (.int x.occlusion_mode)],
    [.packed .b (.int x.obstruction_type)],
    [.packed .b (.int x.obstruction_class)],
    [.packed .b (.int x.trait)],
    [.packed .b (.int x.civilization)],
    [.packed .h (.int x.nothing)],
    [.packed .b (.int x.selection_effect)],
    [.packed .b (.int x.editor_selection_colour)],
    [.packed .f (.float x.outline_size_x)],
    [.packed .f (.float x.outline_size_y)],
    [.packed .f (.float x.outline_size_z)],
    [.packed .l (.int x.scenario_triggers_1)],
    [.packed .l (.int x.scenario_triggers_2)],
    each (ResourceStorage.layout v) x.resource_storages,
    countU8 x.damage_graphics,
    each (DamageGraphic.layout v) x.damage_graphics,
    i16 x.selection_sound,
    i16 x.dying_sound,
    i32 x.wwise_train_sound_id,
    i32 x.wwise_damage_sound_id,
    i32 x.wwise_selection_sound_id,
    i32 x.wwise_dying_sound_id,
    u8 x.old_attack_reaction,
    u8 x.convert_terrain,
    text x.name,
    i16 x.copy_id,
    i16 x.base_id,
    partFrom x.type 20 f32 x.speed,
    partFrom x.type 30 (DeadFish.layout v) x.dead_fish,
    partFrom x.type 40 (Bird.layout v) x.bird,
    partFrom x.type 50 (Type50.layout v) x.type_50,
    partOf x.type 60 (Projectile.layout v) x.projectile,
    partFrom x.type 70 (Creatable.layout v) x.creatable,
    partOf x.type 80 (Building.layout v) x.building] := by
  rw [Unit.layout_eq]
  simp only [if_neg hv, hs, hp, hq, hc]
  rw [(block_flat _ _ _ codes_16 rfl), flatten_inner]
  rfl

end Genie
