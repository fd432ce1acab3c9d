import Verif.Spec.Records
import Verif.Model.UnitHeaders
import Verif.Model.Datfile
/-!
# Well-formedness of the records with version- or type-dependent parts, and of a whole file
-/

namespace Genie

/-- Values of `Task` the format can hold: `enabled` is stored since 8.8; older files give `-1`. -/
structure Task.WF (v : Version) (x : Task) : Prop where
  task_type : IsI16 x.task_type
  id : IsI16 x.id
  is_default : IsI8 x.is_default
  action_type : IsI16 x.action_type
  class_id : IsI16 x.class_id
  unit_id : IsI16 x.unit_id
  terrain_id : IsI16 x.terrain_id
  resource_in : IsI16 x.resource_in
  resource_multiplier : IsI16 x.resource_multiplier
  resource_out : IsI16 x.resource_out
  unused_resource : IsI16 x.unused_resource
  work_value_1 : IsF32 x.work_value_1
  work_value_2 : IsF32 x.work_value_2
  work_range : IsF32 x.work_range
  auto_search_targets : IsI8 x.auto_search_targets
  search_wait_time : IsF32 x.search_wait_time
  enable_targeting : IsI8 x.enable_targeting
  combat_level_flag : IsI8 x.combat_level_flag
  gather_type : IsI16 x.gather_type
  work_flag_2 : IsI16 x.work_flag_2
  target_diplomacy : IsI8 x.target_diplomacy
  carry_check : IsI8 x.carry_check
  pick_for_construction : IsI8 x.pick_for_construction
  moving_graphic_id : IsI16 x.moving_graphic_id
  proceeding_graphic_id : IsI16 x.proceeding_graphic_id
  working_graphic_id : IsI16 x.working_graphic_id
  carrying_graphic_id : IsI16 x.carrying_graphic_id
  resource_gathering_sound_id : IsI16 x.resource_gathering_sound_id
  resource_deposit_sound_id : IsI16 x.resource_deposit_sound_id
  wwise_resource_gathering_sound_id : IsI32 x.wwise_resource_gathering_sound_id
  wwise_resource_deposit_sound_id : IsI32 x.wwise_resource_deposit_sound_id
  enabled : Since v 88 (IsI16 x.enabled) (x.enabled = -1)

/-- Values of `UnitHeaders` the format can hold: there is a task list exactly if `exists` is not 0. -/
structure UnitHeaders.WF (v : Version) (x : UnitHeaders) : Prop where
  exists_ : IsU8 x.exists_
  task_list : PresentIff (x.exists_ ≠ 0) (UpTo 32767 (Task.WF v)) x.task_list

/-- Values of `Bird` the format can hold: before 7.8 there are exactly three drop sites. -/
structure Bird.WF (v : Version) (x : Bird) : Prop where
  default_task_id : IsI16 x.default_task_id
  search_radius : IsF32 x.search_radius
  work_rate : IsF32 x.work_rate
  drop_sites : Since v 78 (UpTo 32767 IsI16 x.drop_sites) (Exactly 3 IsI16 x.drop_sites)
  task_swap_group : IsU8 x.task_swap_group
  attack_sound : IsI16 x.attack_sound
  move_sound : IsI16 x.move_sound
  wwise_attack_sound_id : IsI32 x.wwise_attack_sound_id
  wwise_move_sound_id : IsI32 x.wwise_move_sound_id
  run_pattern : IsU8 x.run_pattern
  tasks : UpTo 32767 (Task.WF v) x.tasks

/-- Values of `Type50` the format can hold: five fields exist since 8.4. -/
structure Type50.WF (v : Version) (x : Type50) : Prop where
  base_armor : IsI16 x.base_armor
  attacks : UpTo 32767 (AttackOrArmor.WF v) x.attacks
  armours : UpTo 32767 (AttackOrArmor.WF v) x.armours
  defense_terrain_bonus : IsI16 x.defense_terrain_bonus
  bonus_damage_resistance : IsF32 x.bonus_damage_resistance
  max_range : IsF32 x.max_range
  blast_width : IsF32 x.blast_width
  reload_time : IsF32 x.reload_time
  projectile_unit_id : IsI16 x.projectile_unit_id
  accuracy_percent : IsI16 x.accuracy_percent
  break_off_combat : IsU8 x.break_off_combat
  frame_delay : IsI16 x.frame_delay
  graphic_displacement : Exactly 3 IsF32 x.graphic_displacement
  blast_attack_level : IsU8 x.blast_attack_level
  min_range : IsF32 x.min_range
  accuracy_dispersion : IsF32 x.accuracy_dispersion
  attack_graphic : IsI16 x.attack_graphic
  displayed_melee_armour : IsI16 x.displayed_melee_armour
  displayed_attack : IsI16 x.displayed_attack
  displayed_range : IsF32 x.displayed_range
  displayed_reload_time : IsF32 x.displayed_reload_time
  blast_damage : IsF32 x.blast_damage
  damage_reflection : Since v 84 (IsF32 x.damage_reflection) (x.damage_reflection = PyFloat.zero)
  friendly_fire_damage : Since v 84 (IsF32 x.friendly_fire_damage) (x.friendly_fire_damage = PyFloat.one)
  interrupt_frame : Since v 84 (IsI16 x.interrupt_frame) (x.interrupt_frame = -1)
  garrison_firepower : Since v 84 (IsF32 x.garrison_firepower) (x.garrison_firepower = PyFloat.zero)
  attack_graphic_2 : Since v 84 (IsI16 x.attack_graphic_2) (x.attack_graphic_2 = -1)

/-- Values of `TrainLocation` the format can hold: the hot key is stored since 8.8; older files give
`16000`. -/
structure TrainLocation.WF (v : Version) (x : TrainLocation) : Prop where
  train_time : IsI16 x.train_time
  unit_id : IsI16 x.unit_id
  button_id : IsI8 x.button_id
  hot_key_id : Since v 88 (IsI32 x.hot_key_id) (x.hot_key_id = 16000)

/-- Values of `Creatable` the format can hold.  Before 8.8 a file stores exactly one train location,
without its hot key, which is then `hk`; nine fields exist since 8.4. -/
structure Creatable.WFWith (v : Version) (hk : Int) (x : Creatable) : Prop where
  resource_costs : Exactly 3 (ResourceCost.WF v) x.resource_costs
  train_locations : Since v 88 (UpTo 32767 (TrainLocation.WF v) x.train_locations)
    (∃ t, x.train_locations = [t] ∧ IsI16 t.train_time ∧ IsI16 t.unit_id ∧ IsI8 t.button_id
      ∧ t.hot_key_id = hk)
  rear_attack_modifier : IsF32 x.rear_attack_modifier
  flank_attack_modifier : IsF32 x.flank_attack_modifier
  creatable_type : IsI8 x.creatable_type
  hero_mode : IsI8 x.hero_mode
  garrison_graphic : IsI32 x.garrison_graphic
  spawning_graphic : IsI16 x.spawning_graphic
  upgrade_graphic : IsI16 x.upgrade_graphic
  hero_glow_graphic : IsI16 x.hero_glow_graphic
  idle_attack_graphic : Since v 84 (IsI16 x.idle_attack_graphic) (x.idle_attack_graphic = -1)
  max_charge : IsF32 x.max_charge
  recharge_rate : IsF32 x.recharge_rate
  charge_event : IsI16 x.charge_event
  charge_type : IsI16 x.charge_type
  charge_target : Since v 84 (IsI16 x.charge_target) (x.charge_target = 0)
  charge_projectile_unit : Since v 84 (IsI32 x.charge_projectile_unit) (x.charge_projectile_unit = -1)
  attack_priority : Since v 84 (IsI8 x.attack_priority) (x.attack_priority = 0)
  invulnerability_level : Since v 84 (IsF32 x.invulnerability_level) (x.invulnerability_level = PyFloat.zero)
  button_icon_id : Since v 84 (IsI16 x.button_icon_id) (x.button_icon_id = -1)
  button_short_tooltip_id : Since v 84 (IsI32 x.button_short_tooltip_id) (x.button_short_tooltip_id = -1)
  button_extended_tooltip_id : Since v 84 (IsI32 x.button_extended_tooltip_id) (x.button_extended_tooltip_id = -1)
  button_hotkey_action : Since v 84 (IsI16 x.button_hotkey_action) (x.button_hotkey_action = -1)
  min_conversion_time_mod : IsF32 x.min_conversion_time_mod
  max_conversion_time_mod : IsF32 x.max_conversion_time_mod
  conversion_chance_mod : IsF32 x.conversion_chance_mod
  total_projectiles : IsF32 x.total_projectiles
  max_total_projectiles : IsI8 x.max_total_projectiles
  projectile_spawning_area : Exactly 3 IsF32 x.projectile_spawning_area
  secondary_projectile_unit : IsI32 x.secondary_projectile_unit
  special_graphic : IsI32 x.special_graphic
  special_ability : IsI8 x.special_ability
  displayed_pierce_armour : IsI16 x.displayed_pierce_armour

/-- `Creatable.from_bytes` on its own fills in the hot key `16000` before 8.8. -/
def Creatable.WF (v : Version) (x : Creatable) : Prop := Creatable.WFWith v 16000 x

/-- Values of `Unit` the format can hold.

Which optional parts are present depends on the unit type only.  Since 8.8 the hot key of a unit is
that of its first train location (16000 if it has none); before 8.8 it is stored in the unit, and
the single train location has the same hot key. -/
structure Unit.WF (v : Version) (x : Unit) : Prop where
  type : IsI8 x.type
  id : IsI16 x.id
  language_dll_name : IsI32 x.language_dll_name
  language_dll_creation : IsI32 x.language_dll_creation
  class_ : IsI16 x.class_
  standing_graphic : Exactly 2 IsI16 x.standing_graphic
  dying_graphic : IsI16 x.dying_graphic
  undead_graphic : IsI16 x.undead_graphic
  undead_mode : IsI8 x.undead_mode
  hit_points : IsI16 x.hit_points
  line_of_sight : IsF32 x.line_of_sight
  garrison_capacity : IsI8 x.garrison_capacity
  collision_size_x : IsF32 x.collision_size_x
  collision_size_y : IsF32 x.collision_size_y
  collision_size_z : IsF32 x.collision_size_z
  train_sound : IsI16 x.train_sound
  damage_sound : IsI16 x.damage_sound
  dead_unit_id : IsI16 x.dead_unit_id
  blood_unit_id : IsI16 x.blood_unit_id
  sort_number : IsI8 x.sort_number
  can_be_built_on : IsI8 x.can_be_built_on
  icon_id : IsI16 x.icon_id
  hide_in_editor : IsI8 x.hide_in_editor
  old_portrait_pict : IsI16 x.old_portrait_pict
  enabled : IsI8 x.enabled
  disabled : IsI8 x.disabled
  placement_side_terrain : Exactly 2 IsI16 x.placement_side_terrain
  placement_terrain : Exactly 2 IsI16 x.placement_terrain
  clearance_size : Exactly 2 IsF32 x.clearance_size
  hill_mode : IsI8 x.hill_mode
  fog_visibility : IsI8 x.fog_visibility
  terrain_restriction : IsI16 x.terrain_restriction
  fly_mode : IsI8 x.fly_mode
  resource_capacity : IsI16 x.resource_capacity
  resource_decay : IsF32 x.resource_decay
  blast_defense_level : IsI8 x.blast_defense_level
  combat_level : IsI8 x.combat_level
  interaction_mode : IsI8 x.interaction_mode
  minimap_mode : IsI8 x.minimap_mode
  interface_kind : IsI8 x.interface_kind
  multiple_attribute_mode : IsF32 x.multiple_attribute_mode
  minimap_color : IsI8 x.minimap_color
  language_dll_help : IsI32 x.language_dll_help
  language_dll_hotkey_text : IsI32 x.language_dll_hotkey_text
  hot_key : Since v 88
    ((∀ c t ts, x.creatable = some c → c.train_locations = t :: ts → x.hot_key = t.hot_key_id) ∧
      ((∀ c, x.creatable = some c → c.train_locations = []) → x.hot_key = 16000))
    (IsI32 x.hot_key)
  recyclable : IsI8 x.recyclable
  enable_auto_gather : IsI8 x.enable_auto_gather
  create_doppelganger_on_death : IsI8 x.create_doppelganger_on_death
  resource_gather_group : IsI8 x.resource_gather_group
  occlusion_mode : IsI8 x.occlusion_mode
  obstruction_type : IsI8 x.obstruction_type
  obstruction_class : IsI8 x.obstruction_class
  trait : IsI8 x.trait
  civilization : IsI8 x.civilization
  nothing : IsI16 x.nothing
  selection_effect : IsI8 x.selection_effect
  editor_selection_colour : IsI8 x.editor_selection_colour
  outline_size_x : IsF32 x.outline_size_x
  outline_size_y : IsF32 x.outline_size_y
  outline_size_z : IsF32 x.outline_size_z
  scenario_triggers_1 : IsI32 x.scenario_triggers_1
  scenario_triggers_2 : IsI32 x.scenario_triggers_2
  resource_storages : Exactly 3 (ResourceStorage.WF v) x.resource_storages
  damage_graphics : UpTo 255 (DamageGraphic.WF v) x.damage_graphics
  selection_sound : IsI16 x.selection_sound
  dying_sound : IsI16 x.dying_sound
  wwise_train_sound_id : IsI32 x.wwise_train_sound_id
  wwise_damage_sound_id : IsI32 x.wwise_damage_sound_id
  wwise_selection_sound_id : IsI32 x.wwise_selection_sound_id
  wwise_dying_sound_id : IsI32 x.wwise_dying_sound_id
  old_attack_reaction : IsU8 x.old_attack_reaction
  convert_terrain : IsU8 x.convert_terrain
  name : IsDebugStr x.name
  copy_id : IsI16 x.copy_id
  base_id : IsI16 x.base_id
  speed : PresentIff (x.type ≠ 90 ∧ 20 ≤ x.type) IsF32 x.speed
  dead_fish : PresentIff (x.type ≠ 90 ∧ 30 ≤ x.type) (DeadFish.WF v) x.dead_fish
  bird : PresentIff (x.type ≠ 90 ∧ 40 ≤ x.type) (Bird.WF v) x.bird
  type_50 : PresentIff (x.type ≠ 90 ∧ 50 ≤ x.type) (Type50.WF v) x.type_50
  projectile : PresentIff (x.type = 60) (Projectile.WF v) x.projectile
  creatable : PresentIff (x.type ≠ 90 ∧ 70 ≤ x.type) (Creatable.WFWith v x.hot_key) x.creatable
  building : PresentIff (x.type = 80) (Building.WF v) x.building

/-- Values of `Graphic` the format can hold: angle sounds are stored only if `angle_sounds_used` is not
0, and then as many as `angle_count` says (none if it is negative). -/
structure Graphic.WF (v : Version) (x : Graphic) : Prop where
  name : IsDebugStr x.name
  file_name : IsDebugStr x.file_name
  particle_effect_name : IsDebugStr x.particle_effect_name
  slp : IsI32 x.slp
  is_loaded : IsU8 x.is_loaded
  old_color_flag : IsU8 x.old_color_flag
  layer : IsU8 x.layer
  player_color : IsI16 x.player_color
  transparent_selection : IsU8 x.transparent_selection
  coordinates : Exactly 4 IsI16 x.coordinates
  sound_id : IsI16 x.sound_id
  wwise_sound_id : IsI32 x.wwise_sound_id
  angle_sounds_used : IsU8 x.angle_sounds_used
  frame_count : IsI16 x.frame_count
  angle_count : IsI16 x.angle_count
  speed_multiplier : IsF32 x.speed_multiplier
  frame_duration : IsF32 x.frame_duration
  replay_delay : IsF32 x.replay_delay
  sequence_type : IsU8 x.sequence_type
  id : IsI16 x.id
  mirroring_mode : IsU8 x.mirroring_mode
  editor_flag : IsU8 x.editor_flag
  deltas : UpTo 32767 (GraphicDelta.WF v) x.deltas
  angle_sounds : AllOf (GraphicAngleSound.WF v) x.angle_sounds ∧
    x.angle_sounds.length = if x.angle_sounds_used = 0 then 0 else x.angle_count.toNat

/-- Values of `Tech` the format can hold: before 8.8 there is exactly one research location. -/
structure Tech.WF (v : Version) (x : Tech) : Prop where
  required_techs : Exactly 6 IsI16 x.required_techs
  resource_costs : Exactly 3 (ResearchResourceCost.WF v) x.resource_costs
  required_tech_count : IsI16 x.required_tech_count
  civ : IsI16 x.civ
  full_tech_mode : IsI16 x.full_tech_mode
  language_dll_name : IsI32 x.language_dll_name
  language_dll_description : IsI32 x.language_dll_description
  effect_id : IsI16 x.effect_id
  type : IsI16 x.type
  icon_id : IsI16 x.icon_id
  language_dll_help : IsI32 x.language_dll_help
  language_dll_tech_tree : IsI32 x.language_dll_tech_tree
  name : IsDebugStr x.name
  repeatable : IsU8 x.repeatable
  research_locations : Since v 88 (UpTo 32767 (ResearchLocation.WF v) x.research_locations)
    (Exactly 1 (ResearchLocation.WF v) x.research_locations)

/-- Values of `Civ` the format can hold (empty unit slots are `none`). -/
structure Civ.WF (v : Version) (x : Civ) : Prop where
  player_type : IsU8 x.player_type
  name : IsDebugStr x.name
  tech_tree_id : IsI16 x.tech_tree_id
  team_bonus_id : IsI16 x.team_bonus_id
  resources : UpTo 32767 IsF32 x.resources
  icon_set : IsU8 x.icon_set
  units : UpTo 32767 (IfSome (Unit.WF v)) x.units

/-- Values of `TerrainRestriction` the format can hold, for `n` terrains. -/
structure TerrainRestriction.WF (v : Version) (n : Nat) (x : TerrainRestriction) : Prop where
  passable_buildable_dmg_multiplier : Exactly n IsF32 x.passable_buildable_dmg_multiplier
  terrain_pass_graphics : Exactly n (TerrainPassGraphic.WF v) x.terrain_pass_graphics

/-- The version strings a file can start with. -/
def versionNames : List (PyStr × Version) :=
  [(lit "VER 7.1", .VER_71), (lit "VER 7.2", .VER_72), (lit "VER 7.3", .VER_73), (lit "VER 7.4", .VER_74),
   (lit "VER 7.5", .VER_75), (lit "VER 7.6", .VER_76), (lit "VER 7.7", .VER_77), (lit "VER 7.8", .VER_78),
   (lit "VER 8.4", .VER_84), (lit "VER 8.8", .VER_88)]

/-- Values of `DatFile` that a file of version `v` can hold. -/
structure DatFile.WFAt (v : Version) (x : DatFile) : Prop where
  version : (x.version, v) ∈ versionNames
  float_ptr_terrain_tables : Exactly x.terrain_restrictions.length IsI32 x.float_ptr_terrain_tables
  terrain_pass_graphic_pointers : Exactly x.terrain_restrictions.length IsI32 x.terrain_pass_graphic_pointers
  terrain_restrictions : ∃ n, n ≤ 32767 ∧ UpTo 32767 (TerrainRestriction.WF v n) x.terrain_restrictions
  player_colours : UpTo 32767 (PlayerColour.WF v) x.player_colours
  sounds : UpTo 32767 (Sound.WF v) x.sounds
  graphics : UpTo 32767 (IfSome (Graphic.WF v)) x.graphics
  terrain_block : TerrainBlock.WF v x.terrain_block
  random_maps : RandomMaps.WF v x.random_maps
  effects : UpTo 2147483647 (Effect.WF v) x.effects
  unit_headers : UpTo 2147483647 (UnitHeaders.WF v) x.unit_headers
  civs : UpTo 32767 (Civ.WF v) x.civs
  techs : UpTo 32767 (Tech.WF v) x.techs
  time_slice : IsI32 x.time_slice
  unit_kill_rate : IsI32 x.unit_kill_rate
  unit_kill_total : IsI32 x.unit_kill_total
  unit_hit_point_rate : IsI32 x.unit_hit_point_rate
  unit_hit_point_total : IsI32 x.unit_hit_point_total
  razing_kill_rate : IsI32 x.razing_kill_rate
  razing_kill_total : IsI32 x.razing_kill_total
  tech_tree : TechTree.WF v x.tech_tree

/-- Values of `DatFile` that a file can hold. -/
def DatFile.WF (x : DatFile) : Prop := ∃ v, DatFile.WFAt v x

end Genie
