import Verif.Spec.Convert
import Verif.Spec.Errors
import Verif.Proof.Records.AnyVersion
import Verif.Proof.DecideWF
/-!
# What is left after saving as another version is well-formed in that version (generated by `tools/gen_convwf.py`)
-/

namespace Genie

theorem Since.stored {v : Version} {n : Nat} {p q : Prop} (h : Since v n p q) (f : q → p) : p := by
  unfold Since at h
  split at h
  · exact h
  · exact f h

theorem Since.of_ge {w : Version} {n : Nat} {p q : Prop} (hw : n ≤ w.num) (h : p) : Since w n p q := by
  unfold Since; rw [if_pos hw]; exact h

theorem Since.of_lt {w : Version} {n : Nat} {p q : Prop} (hw : ¬ n ≤ w.num) (h : q) : Since w n p q := by
  unfold Since; rw [if_neg hw]; exact h

theorem Since.of_ge' {w : Version} {n : Nat} {p q : Prop} (h : Since w n p q) (hw : n ≤ w.num) : p := by
  unfold Since at h; rw [if_pos hw] at h; exact h

theorem Since.of_lt' {w : Version} {n : Nat} {p q : Prop} (h : Since w n p q) (hw : ¬ n ≤ w.num) : q := by
  unfold Since at h; rw [if_neg hw] at h; exact h

theorem AllOf.map {p : α → Prop} {q : β → Prop} {l : List α} {g : α → β} (f : ∀ x ∈ l, p x → q (g x)) (h : AllOf p l) :
    AllOf q (l.map g) := by
  intro y hy
  obtain ⟨x, hx, rfl⟩ := List.mem_map.1 hy
  exact f x hx (h x hx)

theorem UpTo.map {p : α → Prop} {q : β → Prop} {l : List α} {g : α → β} {n : Nat} (f : ∀ x ∈ l, p x → q (g x)) (h : UpTo n p l) :
    UpTo n q (l.map g) := ⟨by rw [List.length_map]; exact h.1, h.2.map f⟩

theorem IfSome.map {p : α → Prop} {q : β → Prop} {o : Option α} {g : α → β} (f : ∀ x, o = some x → p x → q (g x)) (h : IfSome p o) :
    IfSome q (o.map g) := by
  intro y hy
  cases o with
  | none => cases hy
  | some a => cases hy; exact f a rfl (h a rfl)

theorem PresentIff.map {c : Prop} {p : α → Prop} {q : β → Prop} {o : Option α} {g : α → β} (f : ∀ x, o = some x → p x → q (g x))
    (h : PresentIff c p o) : PresentIff c q (o.map g) := by
  refine ⟨?_, h.2.map f⟩
  rw [Option.isSome_map]
  exact h.1

theorem Task.wf_asVersion {v : Version} (w : Version) {x : Task} (h : Task.WF v x) : Task.WF w (x.asVersion w) := by
  unfold Task.asVersion
  by_cases hw : 88 ≤ w.num
  · rw [if_pos hw]
    exact {
    task_type := h.task_type
    id := h.id
    is_default := h.is_default
    action_type := h.action_type
    class_id := h.class_id
    unit_id := h.unit_id
    terrain_id := h.terrain_id
    resource_in := h.resource_in
    resource_multiplier := h.resource_multiplier
    resource_out := h.resource_out
    unused_resource := h.unused_resource
    work_value_1 := h.work_value_1
    work_value_2 := h.work_value_2
    work_range := h.work_range
    auto_search_targets := h.auto_search_targets
    search_wait_time := h.search_wait_time
    enable_targeting := h.enable_targeting
    combat_level_flag := h.combat_level_flag
    gather_type := h.gather_type
    work_flag_2 := h.work_flag_2
    target_diplomacy := h.target_diplomacy
    carry_check := h.carry_check
    pick_for_construction := h.pick_for_construction
    moving_graphic_id := h.moving_graphic_id
    proceeding_graphic_id := h.proceeding_graphic_id
    working_graphic_id := h.working_graphic_id
    carrying_graphic_id := h.carrying_graphic_id
    resource_gathering_sound_id := h.resource_gathering_sound_id
    resource_deposit_sound_id := h.resource_deposit_sound_id
    wwise_resource_gathering_sound_id := h.wwise_resource_gathering_sound_id
    wwise_resource_deposit_sound_id := h.wwise_resource_deposit_sound_id
    enabled := Since.of_ge hw (h.enabled.stored (fun e => by rw [e]; decide)) }
  · rw [if_neg hw]
    exact {
    task_type := h.task_type
    id := h.id
    is_default := h.is_default
    action_type := h.action_type
    class_id := h.class_id
    unit_id := h.unit_id
    terrain_id := h.terrain_id
    resource_in := h.resource_in
    resource_multiplier := h.resource_multiplier
    resource_out := h.resource_out
    unused_resource := h.unused_resource
    work_value_1 := h.work_value_1
    work_value_2 := h.work_value_2
    work_range := h.work_range
    auto_search_targets := h.auto_search_targets
    search_wait_time := h.search_wait_time
    enable_targeting := h.enable_targeting
    combat_level_flag := h.combat_level_flag
    gather_type := h.gather_type
    work_flag_2 := h.work_flag_2
    target_diplomacy := h.target_diplomacy
    carry_check := h.carry_check
    pick_for_construction := h.pick_for_construction
    moving_graphic_id := h.moving_graphic_id
    proceeding_graphic_id := h.proceeding_graphic_id
    working_graphic_id := h.working_graphic_id
    carrying_graphic_id := h.carrying_graphic_id
    resource_gathering_sound_id := h.resource_gathering_sound_id
    resource_deposit_sound_id := h.resource_deposit_sound_id
    wwise_resource_gathering_sound_id := h.wwise_resource_gathering_sound_id
    wwise_resource_deposit_sound_id := h.wwise_resource_deposit_sound_id
    enabled := Since.of_lt hw rfl }

theorem UnitHeaders.wf_asVersion {v : Version} (w : Version) {x : UnitHeaders} (h : UnitHeaders.WF v x) : UnitHeaders.WF w (x.asVersion w) where
  exists_ := h.exists_
  task_list := h.task_list.map fun _ _ k => k.map fun _ _ => Task.wf_asVersion w

theorem Bird.wf_asVersion {v : Version} (w : Version) {x : Bird} (h : Bird.WF v x) (hd : w.num < 78 → x.drop_sites.length = 3) :
    Bird.WF w (x.asVersion w) :=
  have all : AllOf IsI16 x.drop_sites := by
    by_cases hv : 78 ≤ v.num
    · exact (h.drop_sites.of_ge' hv).2
    · exact (h.drop_sites.of_lt' hv).2
  have len : x.drop_sites.length ≤ 32767 := by
    by_cases hv : 78 ≤ v.num
    · exact (h.drop_sites.of_ge' hv).1
    · rw [(h.drop_sites.of_lt' hv).1]; decide
  {
    default_task_id := h.default_task_id
    search_radius := h.search_radius
    work_rate := h.work_rate
    drop_sites := (by by_cases hw : 78 ≤ w.num; exact Since.of_ge hw ⟨len, all⟩; exact Since.of_lt hw ⟨hd (Nat.lt_of_not_le hw), all⟩)
    task_swap_group := h.task_swap_group
    attack_sound := h.attack_sound
    move_sound := h.move_sound
    wwise_attack_sound_id := h.wwise_attack_sound_id
    wwise_move_sound_id := h.wwise_move_sound_id
    run_pattern := h.run_pattern
    tasks := h.tasks.map fun _ _ => Task.wf_asVersion w }

theorem Type50.wf_asVersion {v : Version} (w : Version) {x : Type50} (h : Type50.WF v x) : Type50.WF w (x.asVersion w) := by
  unfold Type50.asVersion
  by_cases hw : 84 ≤ w.num
  · rw [if_pos hw]
    exact {
    base_armor := h.base_armor
    attacks := h.attacks.imp AttackOrArmor.wfv
    armours := h.armours.imp AttackOrArmor.wfv
    defense_terrain_bonus := h.defense_terrain_bonus
    bonus_damage_resistance := h.bonus_damage_resistance
    max_range := h.max_range
    blast_width := h.blast_width
    reload_time := h.reload_time
    projectile_unit_id := h.projectile_unit_id
    accuracy_percent := h.accuracy_percent
    break_off_combat := h.break_off_combat
    frame_delay := h.frame_delay
    graphic_displacement := h.graphic_displacement
    blast_attack_level := h.blast_attack_level
    min_range := h.min_range
    accuracy_dispersion := h.accuracy_dispersion
    attack_graphic := h.attack_graphic
    displayed_melee_armour := h.displayed_melee_armour
    displayed_attack := h.displayed_attack
    displayed_range := h.displayed_range
    displayed_reload_time := h.displayed_reload_time
    blast_damage := h.blast_damage
    damage_reflection := Since.of_ge hw (h.damage_reflection.stored (fun e => by rw [e]; decide))
    friendly_fire_damage := Since.of_ge hw (h.friendly_fire_damage.stored (fun e => by rw [e]; decide))
    interrupt_frame := Since.of_ge hw (h.interrupt_frame.stored (fun e => by rw [e]; decide))
    garrison_firepower := Since.of_ge hw (h.garrison_firepower.stored (fun e => by rw [e]; decide))
    attack_graphic_2 := Since.of_ge hw (h.attack_graphic_2.stored (fun e => by rw [e]; decide)) }
  · rw [if_neg hw]
    exact {
    base_armor := h.base_armor
    attacks := h.attacks.imp AttackOrArmor.wfv
    armours := h.armours.imp AttackOrArmor.wfv
    defense_terrain_bonus := h.defense_terrain_bonus
    bonus_damage_resistance := h.bonus_damage_resistance
    max_range := h.max_range
    blast_width := h.blast_width
    reload_time := h.reload_time
    projectile_unit_id := h.projectile_unit_id
    accuracy_percent := h.accuracy_percent
    break_off_combat := h.break_off_combat
    frame_delay := h.frame_delay
    graphic_displacement := h.graphic_displacement
    blast_attack_level := h.blast_attack_level
    min_range := h.min_range
    accuracy_dispersion := h.accuracy_dispersion
    attack_graphic := h.attack_graphic
    displayed_melee_armour := h.displayed_melee_armour
    displayed_attack := h.displayed_attack
    displayed_range := h.displayed_range
    displayed_reload_time := h.displayed_reload_time
    blast_damage := h.blast_damage
    damage_reflection := Since.of_lt hw rfl
    friendly_fire_damage := Since.of_lt hw rfl
    interrupt_frame := Since.of_lt hw rfl
    garrison_firepower := Since.of_lt hw rfl
    attack_graphic_2 := Since.of_lt hw rfl }

theorem Creatable.wf_asVersion {v : Version} (w : Version) {x : Creatable} {hk : Int} (hk' : Int) (h : Creatable.WFWith v hk x)
    (hhk : ¬ 88 ≤ v.num → IsI32 hk) (hne : ¬ 88 ≤ w.num → x.train_locations ≠ []) : Creatable.WFWith w hk' (x.asVersion w hk') := by
  unfold Creatable.asVersion
  by_cases hw : 84 ≤ w.num
  · rw [if_pos hw]
    exact {
    resource_costs := h.resource_costs.imp ResourceCost.wfv
    train_locations := by
      by_cases hw' : 88 ≤ w.num
      · refine Since.of_ge hw' ?_
        simp only [if_pos hw']
        by_cases hv : 88 ≤ v.num
        · have := h.train_locations.of_ge' hv
          exact this.imp fun k => { train_time := k.train_time, unit_id := k.unit_id, button_id := k.button_id, hot_key_id := Since.of_ge hw' (k.hot_key_id.of_ge' hv) }
        · obtain ⟨t, ht, h1, h2, h3, h4⟩ := h.train_locations.of_lt' hv
          rw [ht]
          refine ⟨by simp, fun y hy => ?_⟩
          simp only [oneLocation, List.mem_singleton] at hy
          subst hy
          exact { train_time := h1, unit_id := h2, button_id := h3, hot_key_id := Since.of_ge hw' (h4 ▸ hhk hv) }
      · refine Since.of_lt hw' ?_
        simp only [if_neg hw']
        cases ht : x.train_locations with
        | nil => exact absurd ht (hne hw')
        | cons t l =>
          refine ⟨{ t with hot_key_id := hk' }, rfl, ?_⟩
          by_cases hv : 88 ≤ v.num
          · have := (h.train_locations.of_ge' hv).2 t (ht ▸ List.mem_cons_self)
            exact ⟨this.train_time, this.unit_id, this.button_id, rfl⟩
          · obtain ⟨t', ht', h1, h2, h3, h4⟩ := h.train_locations.of_lt' hv
            rw [ht] at ht'
            cases ht'
            exact ⟨h1, h2, h3, rfl⟩
    rear_attack_modifier := h.rear_attack_modifier
    flank_attack_modifier := h.flank_attack_modifier
    creatable_type := h.creatable_type
    hero_mode := h.hero_mode
    garrison_graphic := h.garrison_graphic
    spawning_graphic := h.spawning_graphic
    upgrade_graphic := h.upgrade_graphic
    hero_glow_graphic := h.hero_glow_graphic
    idle_attack_graphic := Since.of_ge hw (h.idle_attack_graphic.stored (fun e => by rw [e]; decide))
    max_charge := h.max_charge
    recharge_rate := h.recharge_rate
    charge_event := h.charge_event
    charge_type := h.charge_type
    charge_target := Since.of_ge hw (h.charge_target.stored (fun e => by rw [e]; decide))
    charge_projectile_unit := Since.of_ge hw (h.charge_projectile_unit.stored (fun e => by rw [e]; decide))
    attack_priority := Since.of_ge hw (h.attack_priority.stored (fun e => by rw [e]; decide))
    invulnerability_level := Since.of_ge hw (h.invulnerability_level.stored (fun e => by rw [e]; decide))
    button_icon_id := Since.of_ge hw (h.button_icon_id.stored (fun e => by rw [e]; decide))
    button_short_tooltip_id := Since.of_ge hw (h.button_short_tooltip_id.stored (fun e => by rw [e]; decide))
    button_extended_tooltip_id := Since.of_ge hw (h.button_extended_tooltip_id.stored (fun e => by rw [e]; decide))
    button_hotkey_action := Since.of_ge hw (h.button_hotkey_action.stored (fun e => by rw [e]; decide))
    min_conversion_time_mod := h.min_conversion_time_mod
    max_conversion_time_mod := h.max_conversion_time_mod
    conversion_chance_mod := h.conversion_chance_mod
    total_projectiles := h.total_projectiles
    max_total_projectiles := h.max_total_projectiles
    projectile_spawning_area := h.projectile_spawning_area
    secondary_projectile_unit := h.secondary_projectile_unit
    special_graphic := h.special_graphic
    special_ability := h.special_ability
    displayed_pierce_armour := h.displayed_pierce_armour }
  · rw [if_neg hw]
    exact {
    resource_costs := h.resource_costs.imp ResourceCost.wfv
    train_locations := by
      by_cases hw' : 88 ≤ w.num
      · refine Since.of_ge hw' ?_
        simp only [if_pos hw']
        by_cases hv : 88 ≤ v.num
        · have := h.train_locations.of_ge' hv
          exact this.imp fun k => { train_time := k.train_time, unit_id := k.unit_id, button_id := k.button_id, hot_key_id := Since.of_ge hw' (k.hot_key_id.of_ge' hv) }
        · obtain ⟨t, ht, h1, h2, h3, h4⟩ := h.train_locations.of_lt' hv
          rw [ht]
          refine ⟨by simp, fun y hy => ?_⟩
          simp only [oneLocation, List.mem_singleton] at hy
          subst hy
          exact { train_time := h1, unit_id := h2, button_id := h3, hot_key_id := Since.of_ge hw' (h4 ▸ hhk hv) }
      · refine Since.of_lt hw' ?_
        simp only [if_neg hw']
        cases ht : x.train_locations with
        | nil => exact absurd ht (hne hw')
        | cons t l =>
          refine ⟨{ t with hot_key_id := hk' }, rfl, ?_⟩
          by_cases hv : 88 ≤ v.num
          · have := (h.train_locations.of_ge' hv).2 t (ht ▸ List.mem_cons_self)
            exact ⟨this.train_time, this.unit_id, this.button_id, rfl⟩
          · obtain ⟨t', ht', h1, h2, h3, h4⟩ := h.train_locations.of_lt' hv
            rw [ht] at ht'
            cases ht'
            exact ⟨h1, h2, h3, rfl⟩
    rear_attack_modifier := h.rear_attack_modifier
    flank_attack_modifier := h.flank_attack_modifier
    creatable_type := h.creatable_type
    hero_mode := h.hero_mode
    garrison_graphic := h.garrison_graphic
    spawning_graphic := h.spawning_graphic
    upgrade_graphic := h.upgrade_graphic
    hero_glow_graphic := h.hero_glow_graphic
    idle_attack_graphic := Since.of_lt hw rfl
    max_charge := h.max_charge
    recharge_rate := h.recharge_rate
    charge_event := h.charge_event
    charge_type := h.charge_type
    charge_target := Since.of_lt hw rfl
    charge_projectile_unit := Since.of_lt hw rfl
    attack_priority := Since.of_lt hw rfl
    invulnerability_level := Since.of_lt hw rfl
    button_icon_id := Since.of_lt hw rfl
    button_short_tooltip_id := Since.of_lt hw rfl
    button_extended_tooltip_id := Since.of_lt hw rfl
    button_hotkey_action := Since.of_lt hw rfl
    min_conversion_time_mod := h.min_conversion_time_mod
    max_conversion_time_mod := h.max_conversion_time_mod
    conversion_chance_mod := h.conversion_chance_mod
    total_projectiles := h.total_projectiles
    max_total_projectiles := h.max_total_projectiles
    projectile_spawning_area := h.projectile_spawning_area
    secondary_projectile_unit := h.secondary_projectile_unit
    special_graphic := h.special_graphic
    special_ability := h.special_ability
    displayed_pierce_armour := h.displayed_pierce_armour }

theorem Unit.hotKey_isI32 {v : Version} {x : Unit} (h : Unit.WF v x) : IsI32 x.hot_key := by
  by_cases hv : 88 ≤ v.num
  · have hk := h.hot_key.of_ge' hv
    cases hc : x.creatable with
    | none =>
      rw [hk.2 (fun c k => by rw [hc] at k; cases k)]; decide
    | some c =>
      cases ht : c.train_locations with
      | nil => rw [hk.2 (fun c' k => by rw [hc] at k; cases k; exact ht)]; decide
      | cons t ts =>
        rw [hk.1 c t ts hc ht]
        have := ((h.creatable.2 c hc).train_locations.of_ge' hv).2 t (ht ▸ List.mem_cons_self)
        exact this.hot_key_id.of_ge' hv
  · exact h.hot_key.of_lt' hv

theorem Unit.hotKeyAs_wf (w : Version) (x : Unit) (hw : 88 ≤ w.num) :
    (∀ c t ts, (x.asVersion w).creatable = some c → c.train_locations = t :: ts → x.hotKeyAs w = t.hot_key_id) ∧
      ((∀ c, (x.asVersion w).creatable = some c → c.train_locations = []) → x.hotKeyAs w = 16000) := by
  have hw' : 84 ≤ w.num := by omega
  unfold Unit.asVersion Unit.hotKeyAs Creatable.asVersion
  cases hc : x.creatable with
  | none => simp [hw]
  | some c =>
    simp only [Option.map_some, Option.some.injEq, if_pos hw, if_pos hw']
    constructor
    · rintro _ t ts rfl h; dsimp only at h; rw [h]
    · intro h; have := h _ rfl; dsimp only at this; rw [this]

theorem Unit.wf_asVersion {v : Version} (w : Version) {x : Unit} (h : Unit.WF v x) (hd : x.DropSitesFit w) (hh : ¬ x.Homeless w) :
    Unit.WF w (x.asVersion w) :=
  {
    type := h.type
    id := h.id
    language_dll_name := h.language_dll_name
    language_dll_creation := h.language_dll_creation
    class_ := h.class_
    standing_graphic := h.standing_graphic
    dying_graphic := h.dying_graphic
    undead_graphic := h.undead_graphic
    undead_mode := h.undead_mode
    hit_points := h.hit_points
    line_of_sight := h.line_of_sight
    garrison_capacity := h.garrison_capacity
    collision_size_x := h.collision_size_x
    collision_size_y := h.collision_size_y
    collision_size_z := h.collision_size_z
    train_sound := h.train_sound
    damage_sound := h.damage_sound
    dead_unit_id := h.dead_unit_id
    blood_unit_id := h.blood_unit_id
    sort_number := h.sort_number
    can_be_built_on := h.can_be_built_on
    icon_id := h.icon_id
    hide_in_editor := h.hide_in_editor
    old_portrait_pict := h.old_portrait_pict
    enabled := h.enabled
    disabled := h.disabled
    placement_side_terrain := h.placement_side_terrain
    placement_terrain := h.placement_terrain
    clearance_size := h.clearance_size
    hill_mode := h.hill_mode
    fog_visibility := h.fog_visibility
    terrain_restriction := h.terrain_restriction
    fly_mode := h.fly_mode
    resource_capacity := h.resource_capacity
    resource_decay := h.resource_decay
    blast_defense_level := h.blast_defense_level
    combat_level := h.combat_level
    interaction_mode := h.interaction_mode
    minimap_mode := h.minimap_mode
    interface_kind := h.interface_kind
    multiple_attribute_mode := h.multiple_attribute_mode
    minimap_color := h.minimap_color
    language_dll_help := h.language_dll_help
    language_dll_hotkey_text := h.language_dll_hotkey_text
    hot_key := by
      by_cases hw : 88 ≤ w.num
      · exact Since.of_ge hw (Unit.hotKeyAs_wf w x hw)
      · refine Since.of_lt hw ?_
        show IsI32 (x.hotKeyAs w)
        unfold Unit.hotKeyAs
        rw [if_neg hw]
        exact Unit.hotKey_isI32 h
    recyclable := h.recyclable
    enable_auto_gather := h.enable_auto_gather
    create_doppelganger_on_death := h.create_doppelganger_on_death
    resource_gather_group := h.resource_gather_group
    occlusion_mode := h.occlusion_mode
    obstruction_type := h.obstruction_type
    obstruction_class := h.obstruction_class
    trait := h.trait
    civilization := h.civilization
    nothing := h.nothing
    selection_effect := h.selection_effect
    editor_selection_colour := h.editor_selection_colour
    outline_size_x := h.outline_size_x
    outline_size_y := h.outline_size_y
    outline_size_z := h.outline_size_z
    scenario_triggers_1 := h.scenario_triggers_1
    scenario_triggers_2 := h.scenario_triggers_2
    resource_storages := h.resource_storages.imp ResourceStorage.wfv
    damage_graphics := h.damage_graphics.imp DamageGraphic.wfv
    selection_sound := h.selection_sound
    dying_sound := h.dying_sound
    wwise_train_sound_id := h.wwise_train_sound_id
    wwise_damage_sound_id := h.wwise_damage_sound_id
    wwise_selection_sound_id := h.wwise_selection_sound_id
    wwise_dying_sound_id := h.wwise_dying_sound_id
    old_attack_reaction := h.old_attack_reaction
    convert_terrain := h.convert_terrain
    name := h.name
    copy_id := h.copy_id
    base_id := h.base_id
    speed := h.speed
    dead_fish := ⟨h.dead_fish.1, h.dead_fish.2.imp DeadFish.wfv⟩
    bird := h.bird.map fun b hb k => Bird.wf_asVersion w k fun hw => hd hw b hb
    type_50 := h.type_50.map fun _ _ => Type50.wf_asVersion w
    projectile := ⟨h.projectile.1, h.projectile.2.imp Projectile.wfv⟩
    creatable := h.creatable.map fun c hc k => Creatable.wf_asVersion w _ k (fun hv => h.hot_key.of_lt' hv) (fun hw he => hh (by
      have hp := h.creatable.1.2 (by rw [hc]; rfl)
      exact ⟨hp.1, hp.2, c, hc, Nat.lt_of_not_le hw, he⟩))
    building := ⟨h.building.1, h.building.2.imp Building.wfv⟩ }

theorem Civ.wf_asVersion {v : Version} (w : Version) {x : Civ} (h : Civ.WF v x) (hd : ∀ u, some u ∈ x.units → u.DropSitesFit w)
    (hh : ¬ x.Homeless w) : Civ.WF w (x.asVersion w) :=
  {
    player_type := h.player_type
    name := h.name
    tech_tree_id := h.tech_tree_id
    team_bonus_id := h.team_bonus_id
    resources := h.resources
    icon_set := h.icon_set
    units := h.units.map fun _ ho k => k.map fun u hu k' =>
      Unit.wf_asVersion w k' (hd u (hu ▸ ho)) (fun hl => hh ⟨u, hu ▸ ho, hl⟩) }

theorem Tech.wf_asVersion {v : Version} (w : Version) {x : Tech} (h : Tech.WF v x) : Tech.WF w (x.asVersion w) :=
  have all : UpTo 32767 (ResearchLocation.WF w) x.research_locations := by
    by_cases hv : 88 ≤ v.num
    · exact (h.research_locations.of_ge' hv).imp ResearchLocation.wfv
    · have := h.research_locations.of_lt' hv
      exact ⟨by rw [this.1]; decide, this.2.imp ResearchLocation.wfv⟩
  {
    required_techs := h.required_techs
    resource_costs := h.resource_costs.imp ResearchResourceCost.wfv
    required_tech_count := h.required_tech_count
    civ := h.civ
    full_tech_mode := h.full_tech_mode
    language_dll_name := h.language_dll_name
    language_dll_description := h.language_dll_description
    effect_id := h.effect_id
    type := h.type
    icon_id := h.icon_id
    language_dll_help := h.language_dll_help
    language_dll_tech_tree := h.language_dll_tech_tree
    name := h.name
    repeatable := h.repeatable
    research_locations := by
      by_cases hw : 88 ≤ w.num
      · refine Since.of_ge hw ?_
        simp only [Tech.asVersion, if_pos hw]
        exact all
      · refine Since.of_lt hw ?_
        simp only [Tech.asVersion, if_neg hw]
        cases hl : x.research_locations with
        | nil =>
          refine ⟨rfl, fun y hy => ?_⟩
          simp only [oneLocation, List.mem_singleton] at hy
          subst hy
          exact { location_id := by decide, research_time := by decide, button_id := by decide, hot_key_id := by decide }
        | cons r l =>
          refine ⟨rfl, fun y hy => ?_⟩
          simp only [oneLocation, List.mem_singleton] at hy
          subst hy
          exact all.2 _ (hl ▸ List.mem_cons_self) }

theorem versionNames_value {w : Version} (hw : w ≠ .UNDEFINED) : (w.value, w) ∈ versionNames := by
  cases w <;> first | exact absurd rfl hw | decide +kernel

theorem DatFile.wf_asVersion {v : Version} (w : Version) {x : DatFile} (h : DatFile.WFAt v x) (hw : w ≠ .UNDEFINED)
    (hd : x.DropSitesFit w) (hh : ¬ x.Homeless w) : DatFile.WFAt w (x.asVersion w) :=
  {
    version := versionNames_value hw
    float_ptr_terrain_tables := h.float_ptr_terrain_tables
    terrain_pass_graphic_pointers := h.terrain_pass_graphic_pointers
    terrain_restrictions := h.terrain_restrictions.elim fun n k => ⟨n, k.1, k.2.imp TerrainRestriction.wfv⟩
    player_colours := h.player_colours.imp PlayerColour.wfv
    sounds := h.sounds.imp Sound.wfv
    graphics := h.graphics.imp (fun k => k.imp Graphic.wfv)
    terrain_block := TerrainBlock.wfv h.terrain_block
    random_maps := RandomMaps.wfv h.random_maps
    effects := h.effects.imp Effect.wfv
    unit_headers := h.unit_headers.map fun _ _ => UnitHeaders.wf_asVersion w
    civs := h.civs.map fun c hc k => Civ.wf_asVersion w k (hd c hc) (fun hl => hh ⟨c, hc, hl⟩)
    techs := h.techs.map fun _ _ => Tech.wf_asVersion w
    time_slice := h.time_slice
    unit_kill_rate := h.unit_kill_rate
    unit_kill_total := h.unit_kill_total
    unit_hit_point_rate := h.unit_hit_point_rate
    unit_hit_point_total := h.unit_hit_point_total
    razing_kill_rate := h.razing_kill_rate
    razing_kill_total := h.razing_kill_total
    tech_tree := TechTree.wfv h.tech_tree }

end Genie
