import Verif.Model.Task
/-!
# `/repo/src/genieutils/unit.py`

Generated by `tools/gen_model.py` from the source text (reader and writer transcribed
independently, statement by statement).
-/

set_option linter.unusedVariables false

namespace Genie

/-- `/repo/src/genieutils/unit.py:8` -/
def RESOURCE_STORAGE_FORMAT : String := "<hfb"

/-- `/repo/src/genieutils/unit.py:9` -/
def RESOURCE_STORAGE_FORMAT_LENGTH : Nat := 7

/-- `class ResourceStorage` — `/repo/src/genieutils/unit.py:12-16`. -/
structure ResourceStorage where
  type : Int
  amount : PyFloat
  flag : Int
deriving DecidableEq, Inhabited

/-- `ResourceStorage.from_bytes` — `/repo/src/genieutils/unit.py:19-26`. -/
def ResourceStorage.fromBytes : Reader ResourceStorage := do
  let vs ← unpackFrom RESOURCE_STORAGE_FORMAT RESOURCE_STORAGE_FORMAT_LENGTH
  popInt vs fun type_ vs =>
  popFloat vs fun amount vs =>
  popInt vs fun flag vs =>
  popDone vs do
  return {
    type := type_,
    amount := amount,
    flag := flag }

/-- `ResourceStorage.to_bytes` — `/repo/src/genieutils/unit.py:28-29`. -/
def ResourceStorage.toBytes (version : Version) (self : ResourceStorage) : Py Bytes :=
  structPack RESOURCE_STORAGE_FORMAT ([.int self.type, .float self.amount, .int self.flag])

/-- `/repo/src/genieutils/unit.py:32` -/
def DAMAGE_GRAPHIC_FORMAT : String := "<hhb"

/-- `/repo/src/genieutils/unit.py:33` -/
def DAMAGE_GRAPHIC_FORMAT_LENGTH : Nat := 5

/-- `class DamageGraphic` — `/repo/src/genieutils/unit.py:36-40`. -/
structure DamageGraphic where
  graphic_id : Int
  damage_percent : Int
  apply_mode : Int
deriving DecidableEq, Inhabited

/-- `DamageGraphic.from_bytes` — `/repo/src/genieutils/unit.py:43-51`. -/
def DamageGraphic.fromBytes : Reader DamageGraphic := do
  let vs ← unpackFrom DAMAGE_GRAPHIC_FORMAT DAMAGE_GRAPHIC_FORMAT_LENGTH
  popInt vs fun graphic_id vs =>
  popInt vs fun damage_percent vs =>
  popInt vs fun apply_mode vs =>
  popDone vs do
  return {
    graphic_id := graphic_id,
    damage_percent := damage_percent,
    apply_mode := apply_mode }

/-- `DamageGraphic.to_bytes` — `/repo/src/genieutils/unit.py:53-54`. -/
def DamageGraphic.toBytes (version : Version) (self : DamageGraphic) : Py Bytes :=
  structPack DAMAGE_GRAPHIC_FORMAT ([.int self.graphic_id, .int self.damage_percent, .int self.apply_mode])

/-- `/repo/src/genieutils/unit.py:57` -/
def DEAD_FISH_FORMAT : String := "<hhfbhbfbffffff"

/-- `/repo/src/genieutils/unit.py:58` -/
def DEAD_FISH_FORMAT_LENGTH : Nat := 41

/-- `class DeadFish` — `/repo/src/genieutils/unit.py:61-76`. -/
structure DeadFish where
  walking_graphic : Int
  running_graphic : Int
  rotation_speed : PyFloat
  old_size_class : Int
  tracking_unit : Int
  tracking_unit_mode : Int
  tracking_unit_density : PyFloat
  old_move_algorithm : Int
  turn_radius : PyFloat
  turn_radius_speed : PyFloat
  max_yaw_per_second_moving : PyFloat
  stationary_yaw_revolution_time : PyFloat
  max_yaw_per_second_stationary : PyFloat
  min_collision_size_multiplier : PyFloat
deriving DecidableEq, Inhabited

/-- `DeadFish.from_bytes` — `/repo/src/genieutils/unit.py:79-110`. -/
def DeadFish.fromBytes : Reader DeadFish := do
  let vs ← unpackFrom DEAD_FISH_FORMAT DEAD_FISH_FORMAT_LENGTH
  popInt vs fun walking_graphic vs =>
  popInt vs fun running_graphic vs =>
  popFloat vs fun rotation_speed vs =>
  popInt vs fun old_size_class vs =>
  popInt vs fun tracking_unit vs =>
  popInt vs fun tracking_unit_mode vs =>
  popFloat vs fun tracking_unit_density vs =>
  popInt vs fun old_move_algorithm vs =>
  popFloat vs fun turn_radius vs =>
  popFloat vs fun turn_radius_speed vs =>
  popFloat vs fun max_yaw_per_second_moving vs =>
  popFloat vs fun stationary_yaw_revolution_time vs =>
  popFloat vs fun max_yaw_per_second_stationary vs =>
  popFloat vs fun min_collision_size_multiplier vs =>
  popDone vs do
  return {
    walking_graphic := walking_graphic,
    running_graphic := running_graphic,
    rotation_speed := rotation_speed,
    old_size_class := old_size_class,
    tracking_unit := tracking_unit,
    tracking_unit_mode := tracking_unit_mode,
    tracking_unit_density := tracking_unit_density,
    old_move_algorithm := old_move_algorithm,
    turn_radius := turn_radius,
    turn_radius_speed := turn_radius_speed,
    max_yaw_per_second_moving := max_yaw_per_second_moving,
    stationary_yaw_revolution_time := stationary_yaw_revolution_time,
    max_yaw_per_second_stationary := max_yaw_per_second_stationary,
    min_collision_size_multiplier := min_collision_size_multiplier }

/-- `DeadFish.to_bytes` — `/repo/src/genieutils/unit.py:112-128`. -/
def DeadFish.toBytes (version : Version) (self : DeadFish) : Py Bytes :=
  structPack DEAD_FISH_FORMAT ([.int self.walking_graphic, .int self.running_graphic, .float self.rotation_speed, .int self.old_size_class,
      .int self.tracking_unit, .int self.tracking_unit_mode, .float self.tracking_unit_density, .int self.old_move_algorithm,
      .float self.turn_radius, .float self.turn_radius_speed, .float self.max_yaw_per_second_moving, .float self.stationary_yaw_revolution_time,
      .float self.max_yaw_per_second_stationary, .float self.min_collision_size_multiplier])

/-- `class Bird` — `/repo/src/genieutils/unit.py:131-143`. -/
structure Bird where
  default_task_id : Int
  search_radius : PyFloat
  work_rate : PyFloat
  drop_sites : List Int
  task_swap_group : Int
  attack_sound : Int
  move_sound : Int
  wwise_attack_sound_id : Int
  wwise_move_sound_id : Int
  run_pattern : Int
  tasks : List Task
deriving DecidableEq, Inhabited

/-- `Bird.from_bytes` — `/repo/src/genieutils/unit.py:146-174`. -/
def Bird.fromBytes : Reader Bird := do
  let default_task_id ← readInt16
  let search_radius ← readFloat
  let work_rate ← readFloat
  let drop_sites_size : Int := 3
  let version ← getVersion
  let drop_sites_size ← readOr (version.gt .VER_77) (readInt16) drop_sites_size
  let drop_sites ← readInt16Array drop_sites_size
  let task_swap_group ← readInt8
  let attack_sound ← readInt16
  let move_sound ← readInt16
  let wwise_attack_sound_id ← readInt32
  let wwise_move_sound_id ← readInt32
  let run_pattern ← readInt8
  let task_size ← readInt16
  let tasks ← readClassArray Task.fromBytes task_size
  return {
    default_task_id := default_task_id,
    search_radius := search_radius,
    work_rate := work_rate,
    drop_sites := drop_sites,
    task_swap_group := task_swap_group,
    attack_sound := attack_sound,
    move_sound := move_sound,
    wwise_attack_sound_id := wwise_attack_sound_id,
    wwise_move_sound_id := wwise_move_sound_id,
    run_pattern := run_pattern,
    tasks := tasks }

/-- `Bird.to_bytes` — `/repo/src/genieutils/unit.py:176-191`. -/
def Bird.toBytes (version : Version) (self : Bird) : Py Bytes :=
  joinB [
    writeInt16 self.default_task_id,
    writeFloat self.search_radius,
    writeFloat self.work_rate,
    writeInt16If self.drop_sites.length (version.ge .VER_78),
    writeInt16Array self.drop_sites,
    writeInt8 self.task_swap_group,
    writeInt16 self.attack_sound,
    writeInt16 self.move_sound,
    writeInt32 self.wwise_attack_sound_id,
    writeInt32 self.wwise_move_sound_id,
    writeInt8 self.run_pattern,
    writeInt16 self.tasks.length,
    writeClassArray Task.toBytes self.tasks version]

/-- `/repo/src/genieutils/unit.py:194` -/
def ATTACK_OR_ARMOR_FORMAT : String := "<hh"

/-- `/repo/src/genieutils/unit.py:195` -/
def ATTACK_OR_ARMOR_FORMAT_LENGTH : Nat := 4

/-- `class AttackOrArmor` — `/repo/src/genieutils/unit.py:198-201`. -/
structure AttackOrArmor where
  class_ : Int
  amount : Int
deriving DecidableEq, Inhabited

/-- `AttackOrArmor.from_bytes` — `/repo/src/genieutils/unit.py:204-209`. -/
def AttackOrArmor.fromBytes : Reader AttackOrArmor := do
  let vs ← unpackFrom ATTACK_OR_ARMOR_FORMAT ATTACK_OR_ARMOR_FORMAT_LENGTH
  popInt vs fun class_ vs =>
  popInt vs fun amount vs =>
  popDone vs do
  return {
    class_ := class_,
    amount := amount }

/-- `AttackOrArmor.to_bytes` — `/repo/src/genieutils/unit.py:211-212`. -/
def AttackOrArmor.toBytes (version : Version) (self : AttackOrArmor) : Py Bytes :=
  structPack ATTACK_OR_ARMOR_FORMAT ([.int self.class_, .int self.amount])

/-- `class Type50` — `/repo/src/genieutils/unit.py:215-243`. -/
structure Type50 where
  base_armor : Int
  attacks : List AttackOrArmor
  armours : List AttackOrArmor
  defense_terrain_bonus : Int
  bonus_damage_resistance : PyFloat
  max_range : PyFloat
  blast_width : PyFloat
  reload_time : PyFloat
  projectile_unit_id : Int
  accuracy_percent : Int
  break_off_combat : Int
  frame_delay : Int
  graphic_displacement : List PyFloat
  blast_attack_level : Int
  min_range : PyFloat
  accuracy_dispersion : PyFloat
  attack_graphic : Int
  displayed_melee_armour : Int
  displayed_attack : Int
  displayed_range : PyFloat
  displayed_reload_time : PyFloat
  blast_damage : PyFloat
  damage_reflection : PyFloat
  friendly_fire_damage : PyFloat
  interrupt_frame : Int
  garrison_firepower : PyFloat
  attack_graphic_2 : Int
deriving DecidableEq, Inhabited

/-- `Type50.from_bytes` — `/repo/src/genieutils/unit.py:246-310`. -/
def Type50.fromBytes : Reader Type50 := do
  let base_armor ← readInt16
  let attack_count ← readInt16
  let attacks ← readClassArray AttackOrArmor.fromBytes attack_count
  let armour_count ← readInt16
  let armours ← readClassArray AttackOrArmor.fromBytes armour_count
  let defense_terrain_bonus ← readInt16
  let bonus_damage_resistance ← readFloat
  let max_range ← readFloat
  let blast_width ← readFloat
  let reload_time ← readFloat
  let projectile_unit_id ← readInt16
  let accuracy_percent ← readInt16
  let break_off_combat ← readInt8
  let frame_delay ← readInt16
  let graphic_displacement ← readFloatArray3
  let blast_attack_level ← readInt8
  let min_range ← readFloat
  let accuracy_dispersion ← readFloat
  let attack_graphic ← readInt16
  let displayed_melee_armour ← readInt16
  let displayed_attack ← readInt16
  let displayed_range ← readFloat
  let displayed_reload_time ← readFloat
  let blast_damage ← readFloat
  let damage_reflection : PyFloat := PyFloat.zero
  let friendly_fire_damage : PyFloat := PyFloat.one
  let interrupt_frame : Int := -1
  let garrison_firepower : PyFloat := PyFloat.zero
  let attack_graphic_2 : Int := -1
  let version ← getVersion
  let damage_reflection ← readOr (version.ge .VER_84) (readFloat) damage_reflection
  let friendly_fire_damage ← readOr (version.ge .VER_84) (readFloat) friendly_fire_damage
  let interrupt_frame ← readOr (version.ge .VER_84) (readInt16) interrupt_frame
  let garrison_firepower ← readOr (version.ge .VER_84) (readFloat) garrison_firepower
  let attack_graphic_2 ← readOr (version.ge .VER_84) (readInt16) attack_graphic_2
  return {
    base_armor := base_armor,
    attacks := attacks,
    armours := armours,
    defense_terrain_bonus := defense_terrain_bonus,
    bonus_damage_resistance := bonus_damage_resistance,
    max_range := max_range,
    blast_width := blast_width,
    reload_time := reload_time,
    projectile_unit_id := projectile_unit_id,
    accuracy_percent := accuracy_percent,
    break_off_combat := break_off_combat,
    frame_delay := frame_delay,
    graphic_displacement := graphic_displacement,
    blast_attack_level := blast_attack_level,
    min_range := min_range,
    accuracy_dispersion := accuracy_dispersion,
    attack_graphic := attack_graphic,
    displayed_melee_armour := displayed_melee_armour,
    displayed_attack := displayed_attack,
    displayed_range := displayed_range,
    displayed_reload_time := displayed_reload_time,
    blast_damage := blast_damage,
    damage_reflection := damage_reflection,
    friendly_fire_damage := friendly_fire_damage,
    interrupt_frame := interrupt_frame,
    garrison_firepower := garrison_firepower,
    attack_graphic_2 := attack_graphic_2 }

/-- `Type50.to_bytes` — `/repo/src/genieutils/unit.py:312-347`. -/
def Type50.toBytes (version : Version) (self : Type50) : Py Bytes :=
  joinB [
    joinB [
      writeInt16 self.base_armor,
      writeInt16 self.attacks.length,
      writeClassArray AttackOrArmor.toBytes self.attacks version,
      writeInt16 self.armours.length,
      writeClassArray AttackOrArmor.toBytes self.armours version,
      writeInt16 self.defense_terrain_bonus,
      writeFloat self.bonus_damage_resistance,
      writeFloat self.max_range,
      writeFloat self.blast_width,
      writeFloat self.reload_time,
      writeInt16 self.projectile_unit_id,
      writeInt16 self.accuracy_percent,
      writeInt8 self.break_off_combat,
      writeInt16 self.frame_delay,
      writeFloatArray self.graphic_displacement,
      writeInt8 self.blast_attack_level,
      writeFloat self.min_range,
      writeFloat self.accuracy_dispersion,
      writeInt16 self.attack_graphic,
      writeInt16 self.displayed_melee_armour,
      writeInt16 self.displayed_attack,
      writeFloat self.displayed_range,
      writeFloat self.displayed_reload_time,
      writeFloat self.blast_damage],
    if version.ge .VER_84 then joinB [
      writeFloat self.damage_reflection,
      writeFloat self.friendly_fire_damage,
      writeInt16 self.interrupt_frame,
      writeFloat self.garrison_firepower,
      writeInt16 self.attack_graphic_2]
    else .ok []]

/-- `/repo/src/genieutils/unit.py:350` -/
def PROJECTILE_FORMAT : String := "<bbbbbf"

/-- `/repo/src/genieutils/unit.py:351` -/
def PROJECTILE_FORMAT_LENGTH : Nat := 9

/-- `class Projectile` — `/repo/src/genieutils/unit.py:354-361`. -/
structure Projectile where
  projectile_type : Int
  smart_mode : Int
  hit_mode : Int
  vanish_mode : Int
  area_effect_specials : Int
  projectile_arc : PyFloat
deriving DecidableEq, Inhabited

/-- `Projectile.from_bytes` — `/repo/src/genieutils/unit.py:364-378`. -/
def Projectile.fromBytes : Reader Projectile := do
  let vs ← unpackFrom PROJECTILE_FORMAT PROJECTILE_FORMAT_LENGTH
  popInt vs fun projectile_type vs =>
  popInt vs fun smart_mode vs =>
  popInt vs fun hit_mode vs =>
  popInt vs fun vanish_mode vs =>
  popInt vs fun area_effect_specials vs =>
  popFloat vs fun projectile_arc vs =>
  popDone vs do
  return {
    projectile_type := projectile_type,
    smart_mode := smart_mode,
    hit_mode := hit_mode,
    vanish_mode := vanish_mode,
    area_effect_specials := area_effect_specials,
    projectile_arc := projectile_arc }

/-- `Projectile.to_bytes` — `/repo/src/genieutils/unit.py:380-388`. -/
def Projectile.toBytes (version : Version) (self : Projectile) : Py Bytes :=
  structPack PROJECTILE_FORMAT ([.int self.projectile_type, .int self.smart_mode, .int self.hit_mode, .int self.vanish_mode,
      .int self.area_effect_specials, .float self.projectile_arc])

/-- `/repo/src/genieutils/unit.py:391` -/
def RESOURCE_COST_FORMAT : String := "<hhh"

/-- `/repo/src/genieutils/unit.py:392` -/
def RESOURCE_COST_FORMAT_LENGTH : Nat := 6

/-- `class ResourceCost` — `/repo/src/genieutils/unit.py:395-399`. -/
structure ResourceCost where
  type : Int
  amount : Int
  flag : Int
deriving DecidableEq, Inhabited

/-- `ResourceCost.from_bytes` — `/repo/src/genieutils/unit.py:402-408`. -/
def ResourceCost.fromBytes : Reader ResourceCost := do
  let vs ← unpackFrom RESOURCE_COST_FORMAT RESOURCE_COST_FORMAT_LENGTH
  popInt vs fun type_ vs =>
  popInt vs fun amount vs =>
  popInt vs fun flag vs =>
  popDone vs do
  return {
    type := type_,
    amount := amount,
    flag := flag }

/-- `ResourceCost.to_bytes` — `/repo/src/genieutils/unit.py:410-411`. -/
def ResourceCost.toBytes (version : Version) (self : ResourceCost) : Py Bytes :=
  structPack RESOURCE_COST_FORMAT ([.int self.type, .int self.amount, .int self.flag])

/-- `/repo/src/genieutils/unit.py:414` -/
def TRAIN_LOCATION_FORMAT : String := "<hhb"

/-- `struct.calcsize(TRAIN_LOCATION_FORMAT)` — `/repo/src/genieutils/unit.py:415` -/
def TRAIN_LOCATOIN_FORMAT_LENGTH : Nat := moduleCalcsize TRAIN_LOCATION_FORMAT

/-- `/repo/src/genieutils/unit.py:417` -/
def TRAIN_LOCATION_FORMAT_88 : String := "<hhbl"

/-- `struct.calcsize(TRAIN_LOCATION_FORMAT_88)` — `/repo/src/genieutils/unit.py:418` -/
def TRAIN_LOCATOIN_FORMAT_LENGTH_88 : Nat := moduleCalcsize TRAIN_LOCATION_FORMAT_88

/-- `class TrainLocation` — `/repo/src/genieutils/unit.py:421-426`. -/
structure TrainLocation where
  train_time : Int
  unit_id : Int
  button_id : Int
  hot_key_id : Int
deriving DecidableEq, Inhabited

/-- `TrainLocation.from_bytes_84` — `/repo/src/genieutils/unit.py:435-444`. -/
def TrainLocation.fromBytes84 : Reader TrainLocation := do
  let vs ← unpackFrom TRAIN_LOCATION_FORMAT TRAIN_LOCATOIN_FORMAT_LENGTH
  popInt vs fun train_time vs =>
  popInt vs fun unit_id vs =>
  popInt vs fun button_id vs =>
  popDone vs do
  return {
    train_time := train_time,
    unit_id := unit_id,
    button_id := button_id,
    hot_key_id := 16000 }

/-- `TrainLocation.from_bytes_88` — `/repo/src/genieutils/unit.py:447-457`. -/
def TrainLocation.fromBytes88 : Reader TrainLocation := do
  let vs ← unpackFrom TRAIN_LOCATION_FORMAT_88 TRAIN_LOCATOIN_FORMAT_LENGTH_88
  popInt vs fun train_time vs =>
  popInt vs fun unit_id vs =>
  popInt vs fun button_id vs =>
  popInt vs fun hot_key_id vs =>
  popDone vs do
  return {
    train_time := train_time,
    unit_id := unit_id,
    button_id := button_id,
    hot_key_id := hot_key_id }

/-- `TrainLocation.from_bytes` — `/repo/src/genieutils/unit.py:429-432`. -/
def TrainLocation.fromBytes : Reader TrainLocation := do
  let version ← getVersion
  if version.ge .VER_88 then TrainLocation.fromBytes88
  else TrainLocation.fromBytes84

/-- `TrainLocation.to_bytes` — `/repo/src/genieutils/unit.py:459-462`. -/
def TrainLocation.toBytes (version : Version) (self : TrainLocation) : Py Bytes :=
  if version.ge .VER_88 then structPack TRAIN_LOCATION_FORMAT_88 ([.int self.train_time, .int self.unit_id, .int self.button_id, .int self.hot_key_id])
  else structPack TRAIN_LOCATION_FORMAT ([.int self.train_time, .int self.unit_id, .int self.button_id])

/-- `/repo/src/genieutils/unit.py:465` -/
def CREATABLE_FORMAT : String := "<hhbffbblhhhffhhffffbfffllbh"

/-- `/repo/src/genieutils/unit.py:466` -/
def CREATABLE_FORMAT_LENGTH : Nat := 77

/-- `/repo/src/genieutils/unit.py:467` -/
def CREATABLE_FORMAT_84 : String := "<hhbffbblhhhhffhhhlbfhllhffffbfffllbh"

/-- `struct.calcsize(CREATABLE_FORMAT_84)` — `/repo/src/genieutils/unit.py:468` -/
def CREATABLE_FORMAT_LENGTH_84 : Nat := moduleCalcsize CREATABLE_FORMAT_84

/-- `/repo/src/genieutils/unit.py:469` -/
def CREATABLE_FORMAT_88 : String := "<ffbblhhhhffhhhlbfhllhffffbfffllbh"

/-- `struct.calcsize(CREATABLE_FORMAT_88)` — `/repo/src/genieutils/unit.py:470` -/
def CREATABLE_FORMAT_LENGTH_88 : Nat := moduleCalcsize CREATABLE_FORMAT_88

/-- `class Creatable` — `/repo/src/genieutils/unit.py:473-507`. -/
structure Creatable where
  resource_costs : List ResourceCost
  train_locations : List TrainLocation
  rear_attack_modifier : PyFloat
  flank_attack_modifier : PyFloat
  creatable_type : Int
  hero_mode : Int
  garrison_graphic : Int
  spawning_graphic : Int
  upgrade_graphic : Int
  hero_glow_graphic : Int
  idle_attack_graphic : Int
  max_charge : PyFloat
  recharge_rate : PyFloat
  charge_event : Int
  charge_type : Int
  charge_target : Int
  charge_projectile_unit : Int
  attack_priority : Int
  invulnerability_level : PyFloat
  button_icon_id : Int
  button_short_tooltip_id : Int
  button_extended_tooltip_id : Int
  button_hotkey_action : Int
  min_conversion_time_mod : PyFloat
  max_conversion_time_mod : PyFloat
  conversion_chance_mod : PyFloat
  total_projectiles : PyFloat
  max_total_projectiles : Int
  projectile_spawning_area : List PyFloat
  secondary_projectile_unit : Int
  special_graphic : Int
  special_ability : Int
  displayed_pierce_armour : Int
deriving DecidableEq, Inhabited

/-- `Creatable.from_bytes_78` — `/repo/src/genieutils/unit.py:518-596`. -/
def Creatable.fromBytes78 : Reader Creatable := do
  let resource_costs ← readClassArray3 ResourceCost.fromBytes
  let vs ← unpackFrom CREATABLE_FORMAT CREATABLE_FORMAT_LENGTH
  popInt vs fun train_time vs =>
  popInt vs fun train_location_id vs =>
  popInt vs fun button_id vs =>
  popFloat vs fun rear_attack_modifier vs =>
  popFloat vs fun flank_attack_modifier vs =>
  popInt vs fun creatable_type vs =>
  popInt vs fun hero_mode vs =>
  popInt vs fun garrison_graphic vs =>
  popInt vs fun spawning_graphic vs =>
  popInt vs fun upgrade_graphic vs =>
  popInt vs fun hero_glow_graphic vs =>
  popFloat vs fun max_charge vs =>
  popFloat vs fun recharge_rate vs =>
  popInt vs fun charge_event vs =>
  popInt vs fun charge_type vs =>
  popFloat vs fun min_conversion_time_mod vs =>
  popFloat vs fun max_conversion_time_mod vs =>
  popFloat vs fun conversion_chance_mod vs =>
  popFloat vs fun total_projectiles vs =>
  popInt vs fun max_total_projectiles vs =>
  popFloat vs fun projectile_spawning_area_1 vs =>
  popFloat vs fun projectile_spawning_area_2 vs =>
  popFloat vs fun projectile_spawning_area_3 vs =>
  popInt vs fun secondary_projectile_unit vs =>
  popInt vs fun special_graphic vs =>
  popInt vs fun special_ability vs =>
  popInt vs fun displayed_pierce_armour vs =>
  popDone vs do
  let idle_attack_graphic : Int := -1
  let charge_target : Int := 0
  let charge_projectile_unit : Int := -1
  let attack_priority : Int := 0
  let invulnerability_level : PyFloat := PyFloat.zero
  let button_icon_id : Int := -1
  let button_short_tooltip_id : Int := -1
  let button_extended_tooltip_id : Int := -1
  let button_hotkey_action : Int := -1
  let train_locations : List TrainLocation := [{ train_time := train_time, unit_id := train_location_id, button_id := button_id, hot_key_id := 16000 }]
  return {
    resource_costs := resource_costs,
    train_locations := train_locations,
    rear_attack_modifier := rear_attack_modifier,
    flank_attack_modifier := flank_attack_modifier,
    creatable_type := creatable_type,
    hero_mode := hero_mode,
    garrison_graphic := garrison_graphic,
    spawning_graphic := spawning_graphic,
    upgrade_graphic := upgrade_graphic,
    hero_glow_graphic := hero_glow_graphic,
    idle_attack_graphic := idle_attack_graphic,
    max_charge := max_charge,
    recharge_rate := recharge_rate,
    charge_event := charge_event,
    charge_type := charge_type,
    charge_target := charge_target,
    charge_projectile_unit := charge_projectile_unit,
    attack_priority := attack_priority,
    invulnerability_level := invulnerability_level,
    button_icon_id := button_icon_id,
    button_short_tooltip_id := button_short_tooltip_id,
    button_extended_tooltip_id := button_extended_tooltip_id,
    button_hotkey_action := button_hotkey_action,
    min_conversion_time_mod := min_conversion_time_mod,
    max_conversion_time_mod := max_conversion_time_mod,
    conversion_chance_mod := conversion_chance_mod,
    total_projectiles := total_projectiles,
    max_total_projectiles := max_total_projectiles,
    projectile_spawning_area := [projectile_spawning_area_1, projectile_spawning_area_2, projectile_spawning_area_3],
    secondary_projectile_unit := secondary_projectile_unit,
    special_graphic := special_graphic,
    special_ability := special_ability,
    displayed_pierce_armour := displayed_pierce_armour }

/-- `Creatable.from_bytes_84` — `/repo/src/genieutils/unit.py:599-678`. -/
def Creatable.fromBytes84 : Reader Creatable := do
  let resource_costs ← readClassArray3 ResourceCost.fromBytes
  let vs ← unpackFrom CREATABLE_FORMAT_84 CREATABLE_FORMAT_LENGTH_84
  popInt vs fun train_time vs =>
  popInt vs fun train_location_id vs =>
  popInt vs fun button_id vs =>
  popFloat vs fun rear_attack_modifier vs =>
  popFloat vs fun flank_attack_modifier vs =>
  popInt vs fun creatable_type vs =>
  popInt vs fun hero_mode vs =>
  popInt vs fun garrison_graphic vs =>
  popInt vs fun spawning_graphic vs =>
  popInt vs fun upgrade_graphic vs =>
  popInt vs fun hero_glow_graphic vs =>
  popInt vs fun idle_attack_graphic vs =>
  popFloat vs fun max_charge vs =>
  popFloat vs fun recharge_rate vs =>
  popInt vs fun charge_event vs =>
  popInt vs fun charge_type vs =>
  popInt vs fun charge_target vs =>
  popInt vs fun charge_projectile_unit vs =>
  popInt vs fun attack_priority vs =>
  popFloat vs fun invulnerability_level vs =>
  popInt vs fun button_icon_id vs =>
  popInt vs fun button_short_tooltip_id vs =>
  popInt vs fun button_extended_tooltip_id vs =>
  popInt vs fun button_hotkey_action vs =>
  popFloat vs fun min_conversion_time_mod vs =>
  popFloat vs fun max_conversion_time_mod vs =>
  popFloat vs fun conversion_chance_mod vs =>
  popFloat vs fun total_projectiles vs =>
  popInt vs fun max_total_projectiles vs =>
  popFloat vs fun projectile_spawning_area_1 vs =>
  popFloat vs fun projectile_spawning_area_2 vs =>
  popFloat vs fun projectile_spawning_area_3 vs =>
  popInt vs fun secondary_projectile_unit vs =>
  popInt vs fun special_graphic vs =>
  popInt vs fun special_ability vs =>
  popInt vs fun displayed_pierce_armour vs =>
  popDone vs do
  let train_locations : List TrainLocation := [{ train_time := train_time, unit_id := train_location_id, button_id := button_id, hot_key_id := 16000 }]
  return {
    resource_costs := resource_costs,
    train_locations := train_locations,
    rear_attack_modifier := rear_attack_modifier,
    flank_attack_modifier := flank_attack_modifier,
    creatable_type := creatable_type,
    hero_mode := hero_mode,
    garrison_graphic := garrison_graphic,
    spawning_graphic := spawning_graphic,
    upgrade_graphic := upgrade_graphic,
    hero_glow_graphic := hero_glow_graphic,
    idle_attack_graphic := idle_attack_graphic,
    max_charge := max_charge,
    recharge_rate := recharge_rate,
    charge_event := charge_event,
    charge_type := charge_type,
    charge_target := charge_target,
    charge_projectile_unit := charge_projectile_unit,
    attack_priority := attack_priority,
    invulnerability_level := invulnerability_level,
    button_icon_id := button_icon_id,
    button_short_tooltip_id := button_short_tooltip_id,
    button_extended_tooltip_id := button_extended_tooltip_id,
    button_hotkey_action := button_hotkey_action,
    min_conversion_time_mod := min_conversion_time_mod,
    max_conversion_time_mod := max_conversion_time_mod,
    conversion_chance_mod := conversion_chance_mod,
    total_projectiles := total_projectiles,
    max_total_projectiles := max_total_projectiles,
    projectile_spawning_area := [projectile_spawning_area_1, projectile_spawning_area_2, projectile_spawning_area_3],
    secondary_projectile_unit := secondary_projectile_unit,
    special_graphic := special_graphic,
    special_ability := special_ability,
    displayed_pierce_armour := displayed_pierce_armour }

/-- `Creatable.from_bytes_88` — `/repo/src/genieutils/unit.py:681-756`. -/
def Creatable.fromBytes88 : Reader Creatable := do
  let resource_costs ← readClassArray3 ResourceCost.fromBytes
  let train_location_count ← readInt16
  let train_locations ← readClassArray TrainLocation.fromBytes train_location_count
  let vs ← unpackFrom CREATABLE_FORMAT_88 CREATABLE_FORMAT_LENGTH_88
  popFloat vs fun rear_attack_modifier vs =>
  popFloat vs fun flank_attack_modifier vs =>
  popInt vs fun creatable_type vs =>
  popInt vs fun hero_mode vs =>
  popInt vs fun garrison_graphic vs =>
  popInt vs fun spawning_graphic vs =>
  popInt vs fun upgrade_graphic vs =>
  popInt vs fun hero_glow_graphic vs =>
  popInt vs fun idle_attack_graphic vs =>
  popFloat vs fun max_charge vs =>
  popFloat vs fun recharge_rate vs =>
  popInt vs fun charge_event vs =>
  popInt vs fun charge_type vs =>
  popInt vs fun charge_target vs =>
  popInt vs fun charge_projectile_unit vs =>
  popInt vs fun attack_priority vs =>
  popFloat vs fun invulnerability_level vs =>
  popInt vs fun button_icon_id vs =>
  popInt vs fun button_short_tooltip_id vs =>
  popInt vs fun button_extended_tooltip_id vs =>
  popInt vs fun button_hotkey_action vs =>
  popFloat vs fun min_conversion_time_mod vs =>
  popFloat vs fun max_conversion_time_mod vs =>
  popFloat vs fun conversion_chance_mod vs =>
  popFloat vs fun total_projectiles vs =>
  popInt vs fun max_total_projectiles vs =>
  popFloat vs fun projectile_spawning_area_1 vs =>
  popFloat vs fun projectile_spawning_area_2 vs =>
  popFloat vs fun projectile_spawning_area_3 vs =>
  popInt vs fun secondary_projectile_unit vs =>
  popInt vs fun special_graphic vs =>
  popInt vs fun special_ability vs =>
  popInt vs fun displayed_pierce_armour vs =>
  popDone vs do
  return {
    resource_costs := resource_costs,
    train_locations := train_locations,
    rear_attack_modifier := rear_attack_modifier,
    flank_attack_modifier := flank_attack_modifier,
    creatable_type := creatable_type,
    hero_mode := hero_mode,
    garrison_graphic := garrison_graphic,
    spawning_graphic := spawning_graphic,
    upgrade_graphic := upgrade_graphic,
    hero_glow_graphic := hero_glow_graphic,
    idle_attack_graphic := idle_attack_graphic,
    max_charge := max_charge,
    recharge_rate := recharge_rate,
    charge_event := charge_event,
    charge_type := charge_type,
    charge_target := charge_target,
    charge_projectile_unit := charge_projectile_unit,
    attack_priority := attack_priority,
    invulnerability_level := invulnerability_level,
    button_icon_id := button_icon_id,
    button_short_tooltip_id := button_short_tooltip_id,
    button_extended_tooltip_id := button_extended_tooltip_id,
    button_hotkey_action := button_hotkey_action,
    min_conversion_time_mod := min_conversion_time_mod,
    max_conversion_time_mod := max_conversion_time_mod,
    conversion_chance_mod := conversion_chance_mod,
    total_projectiles := total_projectiles,
    max_total_projectiles := max_total_projectiles,
    projectile_spawning_area := [projectile_spawning_area_1, projectile_spawning_area_2, projectile_spawning_area_3],
    secondary_projectile_unit := secondary_projectile_unit,
    special_graphic := special_graphic,
    special_ability := special_ability,
    displayed_pierce_armour := displayed_pierce_armour }

/-- `Creatable.to_bytes_78` — `/repo/src/genieutils/unit.py:765-793`.  `self.train_locations[0]` raises
`IndexError` on an empty list (after the resource costs were encoded). -/
def Creatable.toBytes78 (version : Version) (self : Creatable) : Py Bytes :=
  joinB [
    writeClassArray ResourceCost.toBytes self.resource_costs version,
    match self.train_locations with
    | [] => .error .indexError
    | train_location :: _ => structPack CREATABLE_FORMAT ([.int train_location.train_time, .int train_location.unit_id, .int train_location.button_id, .float self.rear_attack_modifier,
      .float self.flank_attack_modifier, .int self.creatable_type, .int self.hero_mode, .int self.garrison_graphic,
      .int self.spawning_graphic, .int self.upgrade_graphic, .int self.hero_glow_graphic, .float self.max_charge,
      .float self.recharge_rate, .int self.charge_event, .int self.charge_type, .float self.min_conversion_time_mod,
      .float self.max_conversion_time_mod, .float self.conversion_chance_mod, .float self.total_projectiles, .int self.max_total_projectiles]
      ++ self.projectile_spawning_area.map Val.float
      ++ [.int self.secondary_projectile_unit, .int self.special_graphic, .int self.special_ability, .int self.displayed_pierce_armour])]

/-- `Creatable.to_bytes_84` — `/repo/src/genieutils/unit.py:795-832`.  `self.train_locations[0]` raises
`IndexError` on an empty list (after the resource costs were encoded). -/
def Creatable.toBytes84 (version : Version) (self : Creatable) : Py Bytes :=
  joinB [
    writeClassArray ResourceCost.toBytes self.resource_costs version,
    match self.train_locations with
    | [] => .error .indexError
    | train_location :: _ => structPack CREATABLE_FORMAT_84 ([.int train_location.train_time, .int train_location.unit_id, .int train_location.button_id, .float self.rear_attack_modifier,
      .float self.flank_attack_modifier, .int self.creatable_type, .int self.hero_mode, .int self.garrison_graphic,
      .int self.spawning_graphic, .int self.upgrade_graphic, .int self.hero_glow_graphic, .int self.idle_attack_graphic,
      .float self.max_charge, .float self.recharge_rate, .int self.charge_event, .int self.charge_type,
      .int self.charge_target, .int self.charge_projectile_unit, .int self.attack_priority, .float self.invulnerability_level,
      .int self.button_icon_id, .int self.button_short_tooltip_id, .int self.button_extended_tooltip_id, .int self.button_hotkey_action,
      .float self.min_conversion_time_mod, .float self.max_conversion_time_mod, .float self.conversion_chance_mod, .float self.total_projectiles,
      .int self.max_total_projectiles]
      ++ self.projectile_spawning_area.map Val.float
      ++ [.int self.secondary_projectile_unit, .int self.special_graphic, .int self.special_ability, .int self.displayed_pierce_armour])]

/-- `Creatable.to_bytes_88` — `/repo/src/genieutils/unit.py:834-870`. -/
def Creatable.toBytes88 (version : Version) (self : Creatable) : Py Bytes :=
  joinB [
    writeClassArray ResourceCost.toBytes self.resource_costs version,
    writeInt16 self.train_locations.length,
    writeClassArray TrainLocation.toBytes self.train_locations version,
    structPack CREATABLE_FORMAT_88 ([.float self.rear_attack_modifier, .float self.flank_attack_modifier, .int self.creatable_type, .int self.hero_mode,
      .int self.garrison_graphic, .int self.spawning_graphic, .int self.upgrade_graphic, .int self.hero_glow_graphic,
      .int self.idle_attack_graphic, .float self.max_charge, .float self.recharge_rate, .int self.charge_event,
      .int self.charge_type, .int self.charge_target, .int self.charge_projectile_unit, .int self.attack_priority,
      .float self.invulnerability_level, .int self.button_icon_id, .int self.button_short_tooltip_id, .int self.button_extended_tooltip_id,
      .int self.button_hotkey_action, .float self.min_conversion_time_mod, .float self.max_conversion_time_mod, .float self.conversion_chance_mod,
      .float self.total_projectiles, .int self.max_total_projectiles]
      ++ self.projectile_spawning_area.map Val.float
      ++ [.int self.secondary_projectile_unit, .int self.special_graphic, .int self.special_ability, .int self.displayed_pierce_armour])]

/-- `Creatable.from_bytes` — `/repo/src/genieutils/unit.py:510-515`. -/
def Creatable.fromBytes : Reader Creatable := do
  let version ← getVersion
  if version.ge .VER_88 then Creatable.fromBytes88
  else if version.ge .VER_84 then Creatable.fromBytes84
  else Creatable.fromBytes78

/-- `Creatable.to_bytes` — `/repo/src/genieutils/unit.py:758-763`. -/
def Creatable.toBytes (version : Version) (self : Creatable) : Py Bytes :=
  if version.ge .VER_88 then Creatable.toBytes88 version self
  else if version.ge .VER_84 then Creatable.toBytes84 version self
  else Creatable.toBytes78 version self

/-- `/repo/src/genieutils/unit.py:873` -/
def BUILDING_ANNEX_FORMAT : String := "<hff"

/-- `/repo/src/genieutils/unit.py:874` -/
def BUILDING_ANNEX_FORMAT_LENGTH : Nat := 10

/-- `class BuildingAnnex` — `/repo/src/genieutils/unit.py:877-881`. -/
structure BuildingAnnex where
  unit_id : Int
  misplacement_x : PyFloat
  misplacement_y : PyFloat
deriving DecidableEq, Inhabited

/-- `BuildingAnnex.from_bytes` — `/repo/src/genieutils/unit.py:884-891`. -/
def BuildingAnnex.fromBytes : Reader BuildingAnnex := do
  let vs ← unpackFrom BUILDING_ANNEX_FORMAT BUILDING_ANNEX_FORMAT_LENGTH
  popInt vs fun unit_id vs =>
  popFloat vs fun misplacement_x vs =>
  popFloat vs fun misplacement_y vs =>
  popDone vs do
  return {
    unit_id := unit_id,
    misplacement_x := misplacement_x,
    misplacement_y := misplacement_y }

/-- `BuildingAnnex.to_bytes` — `/repo/src/genieutils/unit.py:893-898`. -/
def BuildingAnnex.toBytes (version : Version) (self : BuildingAnnex) : Py Bytes :=
  structPack BUILDING_ANNEX_FORMAT ([.int self.unit_id, .float self.misplacement_x, .float self.misplacement_y])

/-- `/repo/src/genieutils/unit.py:901` -/
def BUILDING_ANNEX_FORMAT_1 : String := "<hhhhhhbhbhhhhb"

/-- `/repo/src/genieutils/unit.py:902` -/
def BUILDING_ANNEX_FORMAT_1_LENGTH : Nat := 25

/-- `/repo/src/genieutils/unit.py:904` -/
def BUILDING_ANNEX_FORMAT_2 : String := "<hhhhllbffhbbbbbb"

/-- `/repo/src/genieutils/unit.py:905` -/
def BUILDING_ANNEX_FORMAT_2_LENGTH : Nat := 33

/-- `class Building` — `/repo/src/genieutils/unit.py:908-935`. -/
structure Building where
  construction_graphic_id : Int
  snow_graphic_id : Int
  destruction_graphic_id : Int
  destruction_rubble_graphic_id : Int
  researching_graphic : Int
  research_completed_graphic : Int
  adjacent_mode : Int
  graphics_angle : Int
  disappears_when_built : Int
  stack_unit_id : Int
  foundation_terrain_id : Int
  old_overlap_id : Int
  tech_id : Int
  can_burn : Int
  annexes : List BuildingAnnex
  head_unit : Int
  transform_unit : Int
  transform_sound : Int
  construction_sound : Int
  wwise_transform_sound_id : Int
  wwise_construction_sound_id : Int
  garrison_type : Int
  garrison_heal_rate : PyFloat
  garrison_repair_rate : PyFloat
  pile_unit : Int
  looting_table : List Int
deriving DecidableEq, Inhabited

/-- `Building.from_bytes` — `/repo/src/genieutils/unit.py:938-1008`. -/
def Building.fromBytes : Reader Building := do
  let vs ← unpackFrom BUILDING_ANNEX_FORMAT_1 BUILDING_ANNEX_FORMAT_1_LENGTH
  popInt vs fun construction_graphic_id vs =>
  popInt vs fun snow_graphic_id vs =>
  popInt vs fun destruction_graphic_id vs =>
  popInt vs fun destruction_rubble_graphic_id vs =>
  popInt vs fun researching_graphic vs =>
  popInt vs fun research_completed_graphic vs =>
  popInt vs fun adjacent_mode vs =>
  popInt vs fun graphics_angle vs =>
  popInt vs fun disappears_when_built vs =>
  popInt vs fun stack_unit_id vs =>
  popInt vs fun foundation_terrain_id vs =>
  popInt vs fun old_overlap_id vs =>
  popInt vs fun tech_id vs =>
  popInt vs fun can_burn vs =>
  popDone vs do
  let annexes ← readClassArray4 BuildingAnnex.fromBytes
  let vs ← unpackFrom BUILDING_ANNEX_FORMAT_2 BUILDING_ANNEX_FORMAT_2_LENGTH
  popInt vs fun head_unit vs =>
  popInt vs fun transform_unit vs =>
  popInt vs fun transform_sound vs =>
  popInt vs fun construction_sound vs =>
  popInt vs fun wwise_transform_sound_id vs =>
  popInt vs fun wwise_construction_sound_id vs =>
  popInt vs fun garrison_type vs =>
  popFloat vs fun garrison_heal_rate vs =>
  popFloat vs fun garrison_repair_rate vs =>
  popInt vs fun pile_unit vs =>
  popInt vs fun looting_table_1 vs =>
  popInt vs fun looting_table_2 vs =>
  popInt vs fun looting_table_3 vs =>
  popInt vs fun looting_table_4 vs =>
  popInt vs fun looting_table_5 vs =>
  popInt vs fun looting_table_6 vs =>
  popDone vs do
  return {
    construction_graphic_id := construction_graphic_id,
    snow_graphic_id := snow_graphic_id,
    destruction_graphic_id := destruction_graphic_id,
    destruction_rubble_graphic_id := destruction_rubble_graphic_id,
    researching_graphic := researching_graphic,
    research_completed_graphic := research_completed_graphic,
    adjacent_mode := adjacent_mode,
    graphics_angle := graphics_angle,
    disappears_when_built := disappears_when_built,
    stack_unit_id := stack_unit_id,
    foundation_terrain_id := foundation_terrain_id,
    old_overlap_id := old_overlap_id,
    tech_id := tech_id,
    can_burn := can_burn,
    annexes := annexes,
    head_unit := head_unit,
    transform_unit := transform_unit,
    transform_sound := transform_sound,
    construction_sound := construction_sound,
    wwise_transform_sound_id := wwise_transform_sound_id,
    wwise_construction_sound_id := wwise_construction_sound_id,
    garrison_type := garrison_type,
    garrison_heal_rate := garrison_heal_rate,
    garrison_repair_rate := garrison_repair_rate,
    pile_unit := pile_unit,
    looting_table := [looting_table_1, looting_table_2, looting_table_3, looting_table_4, looting_table_5, looting_table_6] }

/-- `Building.to_bytes` — `/repo/src/genieutils/unit.py:1010-1040`. -/
def Building.toBytes (version : Version) (self : Building) : Py Bytes :=
  joinB [
    structPack BUILDING_ANNEX_FORMAT_1 ([.int self.construction_graphic_id, .int self.snow_graphic_id, .int self.destruction_graphic_id, .int self.destruction_rubble_graphic_id,
      .int self.researching_graphic, .int self.research_completed_graphic, .int self.adjacent_mode, .int self.graphics_angle,
      .int self.disappears_when_built, .int self.stack_unit_id, .int self.foundation_terrain_id, .int self.old_overlap_id,
      .int self.tech_id, .int self.can_burn]),
    writeClassArray BuildingAnnex.toBytes self.annexes version,
    structPack BUILDING_ANNEX_FORMAT_2 ([.int self.head_unit, .int self.transform_unit, .int self.transform_sound, .int self.construction_sound,
      .int self.wwise_transform_sound_id, .int self.wwise_construction_sound_id, .int self.garrison_type, .float self.garrison_heal_rate,
      .float self.garrison_repair_rate, .int self.pile_unit]
      ++ self.looting_table.map Val.int)]

/-- `/repo/src/genieutils/unit.py:1043` -/
def UNIT_FORMAT : String := "<bhllhhhhhbhfbfffhhhhbbhbhbbhhhhffbbhbhfbbbbbfblllbbbbbbbbbhbbfffll"

/-- `/repo/src/genieutils/unit.py:1044` -/
def UNIT_FORMAT_LENGTH : Nat := 140

/-- `/repo/src/genieutils/unit.py:1046` -/
def UNIT_FORMAT_88 : String := "<bhllhhhhhbhfbfffhhhhbbhbhbbhhhhffbbhbhfbbbbbfbllbbbbbbbbbhbbfffll"

/-- `struct.calcsize(FORMAT_88)` — `/repo/src/genieutils/unit.py:1047` -/
def UNIT_FORMAT_LENGTH_88 : Nat := moduleCalcsize UNIT_FORMAT_88

/-- `class Unit` — `/repo/src/genieutils/unit.py:1050-1133`. -/
structure Unit where
  type : Int
  id : Int
  language_dll_name : Int
  language_dll_creation : Int
  class_ : Int
  standing_graphic : List Int
  dying_graphic : Int
  undead_graphic : Int
  undead_mode : Int
  hit_points : Int
  line_of_sight : PyFloat
  garrison_capacity : Int
  collision_size_x : PyFloat
  collision_size_y : PyFloat
  collision_size_z : PyFloat
  train_sound : Int
  damage_sound : Int
  dead_unit_id : Int
  blood_unit_id : Int
  sort_number : Int
  can_be_built_on : Int
  icon_id : Int
  hide_in_editor : Int
  old_portrait_pict : Int
  enabled : Int
  disabled : Int
  placement_side_terrain : List Int
  placement_terrain : List Int
  clearance_size : List PyFloat
  hill_mode : Int
  fog_visibility : Int
  terrain_restriction : Int
  fly_mode : Int
  resource_capacity : Int
  resource_decay : PyFloat
  blast_defense_level : Int
  combat_level : Int
  interaction_mode : Int
  minimap_mode : Int
  interface_kind : Int
  multiple_attribute_mode : PyFloat
  minimap_color : Int
  language_dll_help : Int
  language_dll_hotkey_text : Int
  hot_key : Int
  recyclable : Int
  enable_auto_gather : Int
  create_doppelganger_on_death : Int
  resource_gather_group : Int
  occlusion_mode : Int
  obstruction_type : Int
  obstruction_class : Int
  trait : Int
  civilization : Int
  nothing : Int
  selection_effect : Int
  editor_selection_colour : Int
  outline_size_x : PyFloat
  outline_size_y : PyFloat
  outline_size_z : PyFloat
  scenario_triggers_1 : Int
  scenario_triggers_2 : Int
  resource_storages : List ResourceStorage
  damage_graphics : List DamageGraphic
  selection_sound : Int
  dying_sound : Int
  wwise_train_sound_id : Int
  wwise_damage_sound_id : Int
  wwise_selection_sound_id : Int
  wwise_dying_sound_id : Int
  old_attack_reaction : Int
  convert_terrain : Int
  name : PyStr
  copy_id : Int
  base_id : Int
  speed : Option PyFloat
  dead_fish : Option DeadFish
  bird : Option Bird
  type_50 : Option Type50
  projectile : Option Projectile
  creatable : Option Creatable
  building : Option Building
deriving DecidableEq, Inhabited

/-- The hot key post-processing of `Unit.from_bytes_84` — `/repo/src/genieutils/unit.py:1243-1246`:
an empty list of train locations is replaced by a default one, then the unit's hot key is stored in
the first train location. -/
def Creatable.withHotKey (hot_key : Int) (creatable : Creatable) : Creatable :=
  match creatable.train_locations with
  | [] => { creatable with train_locations :=
      [{ train_time := 0, unit_id := -1, button_id := 0, hot_key_id := hot_key }] }
  | t :: ts => { creatable with train_locations := { t with hot_key_id := hot_key } :: ts }

/-- `Unit.from_bytes_84` — `/repo/src/genieutils/unit.py:1142-1331`. -/
def Unit.fromBytes84 : Reader Unit := do
  let vs ← unpackFrom UNIT_FORMAT UNIT_FORMAT_LENGTH
  popInt vs fun type_ vs =>
  popInt vs fun id_ vs =>
  popInt vs fun language_dll_name vs =>
  popInt vs fun language_dll_creation vs =>
  popInt vs fun class_ vs =>
  popInt vs fun standing_graphic_1 vs =>
  popInt vs fun standing_graphic_2 vs =>
  popInt vs fun dying_graphic vs =>
  popInt vs fun undead_graphic vs =>
  popInt vs fun undead_mode vs =>
  popInt vs fun hit_points vs =>
  popFloat vs fun line_of_sight vs =>
  popInt vs fun garrison_capacity vs =>
  popFloat vs fun collision_size_x vs =>
  popFloat vs fun collision_size_y vs =>
  popFloat vs fun collision_size_z vs =>
  popInt vs fun train_sound vs =>
  popInt vs fun damage_sound vs =>
  popInt vs fun dead_unit_id vs =>
  popInt vs fun blood_unit_id vs =>
  popInt vs fun sort_number vs =>
  popInt vs fun can_be_built_on vs =>
  popInt vs fun icon_id vs =>
  popInt vs fun hide_in_editor vs =>
  popInt vs fun old_portrait_pict vs =>
  popInt vs fun enabled vs =>
  popInt vs fun disabled vs =>
  popInt vs fun placement_side_terrain_1 vs =>
  popInt vs fun placement_side_terrain_2 vs =>
  popInt vs fun placement_terrain_1 vs =>
  popInt vs fun placement_terrain_2 vs =>
  popFloat vs fun clearance_size_1 vs =>
  popFloat vs fun clearance_size_2 vs =>
  popInt vs fun hill_mode vs =>
  popInt vs fun fog_visibility vs =>
  popInt vs fun terrain_restriction vs =>
  popInt vs fun fly_mode vs =>
  popInt vs fun resource_capacity vs =>
  popFloat vs fun resource_decay vs =>
  popInt vs fun blast_defense_level vs =>
  popInt vs fun combat_level vs =>
  popInt vs fun interaction_mode vs =>
  popInt vs fun minimap_mode vs =>
  popInt vs fun interface_kind vs =>
  popFloat vs fun multiple_attribute_mode vs =>
  popInt vs fun minimap_color vs =>
  popInt vs fun language_dll_help vs =>
  popInt vs fun language_dll_hotkey_text vs =>
  popInt vs fun hot_key vs =>
  popInt vs fun recyclable vs =>
  popInt vs fun enable_auto_gather vs =>
  popInt vs fun create_doppelganger_on_death vs =>
  popInt vs fun resource_gather_group vs =>
  popInt vs fun occlusion_mode vs =>
  popInt vs fun obstruction_type vs =>
  popInt vs fun obstruction_class vs =>
  popInt vs fun trait vs =>
  popInt vs fun civilization vs =>
  popInt vs fun nothing vs =>
  popInt vs fun selection_effect vs =>
  popInt vs fun editor_selection_colour vs =>
  popFloat vs fun outline_size_x vs =>
  popFloat vs fun outline_size_y vs =>
  popFloat vs fun outline_size_z vs =>
  popInt vs fun scenario_triggers_1 vs =>
  popInt vs fun scenario_triggers_2 vs =>
  popDone vs do
  let resource_storages ← readClassArray3 ResourceStorage.fromBytes
  let damage_graphic_size ← readInt8
  let damage_graphics ← readClassArray DamageGraphic.fromBytes damage_graphic_size
  let selection_sound ← readInt16
  let dying_sound ← readInt16
  let wwise_train_sound_id ← readInt32
  let wwise_damage_sound_id ← readInt32
  let wwise_selection_sound_id ← readInt32
  let wwise_dying_sound_id ← readInt32
  let old_attack_reaction ← readInt8
  let convert_terrain ← readInt8
  let name ← readDebugString
  let copy_id ← readInt16
  let base_id ← readInt16
  let speed ← readIf (type_ ≠ UnitType.AoeTrees ∧ type_ ≥ UnitType.Flag) (readFloat)
  let dead_fish ← readIf (type_ ≠ UnitType.AoeTrees ∧ type_ ≥ UnitType.Flag ∧ type_ ≥ UnitType.DeadFish) (readClass DeadFish.fromBytes)
  let bird ← readIf (type_ ≠ UnitType.AoeTrees ∧ type_ ≥ UnitType.Flag ∧ type_ ≥ UnitType.Bird) (readClass Bird.fromBytes)
  let type_50 ← readIf (type_ ≠ UnitType.AoeTrees ∧ type_ ≥ UnitType.Flag ∧ type_ ≥ UnitType.Combatant) (readClass Type50.fromBytes)
  let projectile ← readIf (type_ ≠ UnitType.AoeTrees ∧ type_ ≥ UnitType.Flag ∧ type_ = UnitType.Projectile) (readClass Projectile.fromBytes)
  let creatable ← readIf (type_ ≠ UnitType.AoeTrees ∧ type_ ≥ UnitType.Flag ∧ type_ ≥ UnitType.Creatable) (readClass Creatable.fromBytes)
  let building ← readIf (type_ ≠ UnitType.AoeTrees ∧ type_ ≥ UnitType.Flag ∧ type_ = UnitType.Building) (readClass Building.fromBytes)
  let creatable := creatable.map (Creatable.withHotKey hot_key)
  return {
    type := type_,
    id := id_,
    language_dll_name := language_dll_name,
    language_dll_creation := language_dll_creation,
    class_ := class_,
    standing_graphic := [standing_graphic_1, standing_graphic_2],
    dying_graphic := dying_graphic,
    undead_graphic := undead_graphic,
    undead_mode := undead_mode,
    hit_points := hit_points,
    line_of_sight := line_of_sight,
    garrison_capacity := garrison_capacity,
    collision_size_x := collision_size_x,
    collision_size_y := collision_size_y,
    collision_size_z := collision_size_z,
    train_sound := train_sound,
    damage_sound := damage_sound,
    dead_unit_id := dead_unit_id,
    blood_unit_id := blood_unit_id,
    sort_number := sort_number,
    can_be_built_on := can_be_built_on,
    icon_id := icon_id,
    hide_in_editor := hide_in_editor,
    old_portrait_pict := old_portrait_pict,
    enabled := enabled,
    disabled := disabled,
    placement_side_terrain := [placement_side_terrain_1, placement_side_terrain_2],
    placement_terrain := [placement_terrain_1, placement_terrain_2],
    clearance_size := [clearance_size_1, clearance_size_2],
    hill_mode := hill_mode,
    fog_visibility := fog_visibility,
    terrain_restriction := terrain_restriction,
    fly_mode := fly_mode,
    resource_capacity := resource_capacity,
    resource_decay := resource_decay,
    blast_defense_level := blast_defense_level,
    combat_level := combat_level,
    interaction_mode := interaction_mode,
    minimap_mode := minimap_mode,
    interface_kind := interface_kind,
    multiple_attribute_mode := multiple_attribute_mode,
    minimap_color := minimap_color,
    language_dll_help := language_dll_help,
    language_dll_hotkey_text := language_dll_hotkey_text,
    hot_key := hot_key,
    recyclable := recyclable,
    enable_auto_gather := enable_auto_gather,
    create_doppelganger_on_death := create_doppelganger_on_death,
    resource_gather_group := resource_gather_group,
    occlusion_mode := occlusion_mode,
    obstruction_type := obstruction_type,
    obstruction_class := obstruction_class,
    trait := trait,
    civilization := civilization,
    nothing := nothing,
    selection_effect := selection_effect,
    editor_selection_colour := editor_selection_colour,
    outline_size_x := outline_size_x,
    outline_size_y := outline_size_y,
    outline_size_z := outline_size_z,
    scenario_triggers_1 := scenario_triggers_1,
    scenario_triggers_2 := scenario_triggers_2,
    resource_storages := resource_storages,
    damage_graphics := damage_graphics,
    selection_sound := selection_sound,
    dying_sound := dying_sound,
    wwise_train_sound_id := wwise_train_sound_id,
    wwise_damage_sound_id := wwise_damage_sound_id,
    wwise_selection_sound_id := wwise_selection_sound_id,
    wwise_dying_sound_id := wwise_dying_sound_id,
    old_attack_reaction := old_attack_reaction,
    convert_terrain := convert_terrain,
    name := name,
    copy_id := copy_id,
    base_id := base_id,
    speed := speed,
    dead_fish := dead_fish,
    bird := bird,
    type_50 := type_50,
    projectile := projectile,
    creatable := creatable,
    building := building }

/-- The hot key post-processing of `Unit.from_bytes_88` — `/repo/src/genieutils/unit.py:1434-1435`:
the unit's hot key is that of the first train location, if there is one. -/
def Creatable.firstHotKey (creatable : Option Creatable) (hot_key : Int) : Int :=
  match creatable with
  | none => hot_key
  | some c =>
    match c.train_locations with
    | [] => hot_key
    | t :: _ => t.hot_key_id

/-- `Unit.from_bytes_88` — `/repo/src/genieutils/unit.py:1334-1520`. -/
def Unit.fromBytes88 : Reader Unit := do
  let vs ← unpackFrom UNIT_FORMAT_88 UNIT_FORMAT_LENGTH_88
  popInt vs fun type_ vs =>
  popInt vs fun id_ vs =>
  popInt vs fun language_dll_name vs =>
  popInt vs fun language_dll_creation vs =>
  popInt vs fun class_ vs =>
  popInt vs fun standing_graphic_1 vs =>
  popInt vs fun standing_graphic_2 vs =>
  popInt vs fun dying_graphic vs =>
  popInt vs fun undead_graphic vs =>
  popInt vs fun undead_mode vs =>
  popInt vs fun hit_points vs =>
  popFloat vs fun line_of_sight vs =>
  popInt vs fun garrison_capacity vs =>
  popFloat vs fun collision_size_x vs =>
  popFloat vs fun collision_size_y vs =>
  popFloat vs fun collision_size_z vs =>
  popInt vs fun train_sound vs =>
  popInt vs fun damage_sound vs =>
  popInt vs fun dead_unit_id vs =>
  popInt vs fun blood_unit_id vs =>
  popInt vs fun sort_number vs =>
  popInt vs fun can_be_built_on vs =>
  popInt vs fun icon_id vs =>
  popInt vs fun hide_in_editor vs =>
  popInt vs fun old_portrait_pict vs =>
  popInt vs fun enabled vs =>
  popInt vs fun disabled vs =>
  popInt vs fun placement_side_terrain_1 vs =>
  popInt vs fun placement_side_terrain_2 vs =>
  popInt vs fun placement_terrain_1 vs =>
  popInt vs fun placement_terrain_2 vs =>
  popFloat vs fun clearance_size_1 vs =>
  popFloat vs fun clearance_size_2 vs =>
  popInt vs fun hill_mode vs =>
  popInt vs fun fog_visibility vs =>
  popInt vs fun terrain_restriction vs =>
  popInt vs fun fly_mode vs =>
  popInt vs fun resource_capacity vs =>
  popFloat vs fun resource_decay vs =>
  popInt vs fun blast_defense_level vs =>
  popInt vs fun combat_level vs =>
  popInt vs fun interaction_mode vs =>
  popInt vs fun minimap_mode vs =>
  popInt vs fun interface_kind vs =>
  popFloat vs fun multiple_attribute_mode vs =>
  popInt vs fun minimap_color vs =>
  popInt vs fun language_dll_help vs =>
  popInt vs fun language_dll_hotkey_text vs =>
  popInt vs fun recyclable vs =>
  popInt vs fun enable_auto_gather vs =>
  popInt vs fun create_doppelganger_on_death vs =>
  popInt vs fun resource_gather_group vs =>
  popInt vs fun occlusion_mode vs =>
  popInt vs fun obstruction_type vs =>
  popInt vs fun obstruction_class vs =>
  popInt vs fun trait vs =>
  popInt vs fun civilization vs =>
  popInt vs fun nothing vs =>
  popInt vs fun selection_effect vs =>
  popInt vs fun editor_selection_colour vs =>
  popFloat vs fun outline_size_x vs =>
  popFloat vs fun outline_size_y vs =>
  popFloat vs fun outline_size_z vs =>
  popInt vs fun scenario_triggers_1 vs =>
  popInt vs fun scenario_triggers_2 vs =>
  popDone vs do
  let hot_key : Int := 16000
  let resource_storages ← readClassArray3 ResourceStorage.fromBytes
  let damage_graphic_size ← readInt8
  let damage_graphics ← readClassArray DamageGraphic.fromBytes damage_graphic_size
  let selection_sound ← readInt16
  let dying_sound ← readInt16
  let wwise_train_sound_id ← readInt32
  let wwise_damage_sound_id ← readInt32
  let wwise_selection_sound_id ← readInt32
  let wwise_dying_sound_id ← readInt32
  let old_attack_reaction ← readInt8
  let convert_terrain ← readInt8
  let name ← readDebugString
  let copy_id ← readInt16
  let base_id ← readInt16
  let speed ← readIf (type_ ≠ UnitType.AoeTrees ∧ type_ ≥ UnitType.Flag) (readFloat)
  let dead_fish ← readIf (type_ ≠ UnitType.AoeTrees ∧ type_ ≥ UnitType.Flag ∧ type_ ≥ UnitType.DeadFish) (readClass DeadFish.fromBytes)
  let bird ← readIf (type_ ≠ UnitType.AoeTrees ∧ type_ ≥ UnitType.Flag ∧ type_ ≥ UnitType.Bird) (readClass Bird.fromBytes)
  let type_50 ← readIf (type_ ≠ UnitType.AoeTrees ∧ type_ ≥ UnitType.Flag ∧ type_ ≥ UnitType.Combatant) (readClass Type50.fromBytes)
  let projectile ← readIf (type_ ≠ UnitType.AoeTrees ∧ type_ ≥ UnitType.Flag ∧ type_ = UnitType.Projectile) (readClass Projectile.fromBytes)
  let creatable ← readIf (type_ ≠ UnitType.AoeTrees ∧ type_ ≥ UnitType.Flag ∧ type_ ≥ UnitType.Creatable) (readClass Creatable.fromBytes)
  let building ← readIf (type_ ≠ UnitType.AoeTrees ∧ type_ ≥ UnitType.Flag ∧ type_ = UnitType.Building) (readClass Building.fromBytes)
  let hot_key := Creatable.firstHotKey creatable hot_key
  return {
    type := type_,
    id := id_,
    language_dll_name := language_dll_name,
    language_dll_creation := language_dll_creation,
    class_ := class_,
    standing_graphic := [standing_graphic_1, standing_graphic_2],
    dying_graphic := dying_graphic,
    undead_graphic := undead_graphic,
    undead_mode := undead_mode,
    hit_points := hit_points,
    line_of_sight := line_of_sight,
    garrison_capacity := garrison_capacity,
    collision_size_x := collision_size_x,
    collision_size_y := collision_size_y,
    collision_size_z := collision_size_z,
    train_sound := train_sound,
    damage_sound := damage_sound,
    dead_unit_id := dead_unit_id,
    blood_unit_id := blood_unit_id,
    sort_number := sort_number,
    can_be_built_on := can_be_built_on,
    icon_id := icon_id,
    hide_in_editor := hide_in_editor,
    old_portrait_pict := old_portrait_pict,
    enabled := enabled,
    disabled := disabled,
    placement_side_terrain := [placement_side_terrain_1, placement_side_terrain_2],
    placement_terrain := [placement_terrain_1, placement_terrain_2],
    clearance_size := [clearance_size_1, clearance_size_2],
    hill_mode := hill_mode,
    fog_visibility := fog_visibility,
    terrain_restriction := terrain_restriction,
    fly_mode := fly_mode,
    resource_capacity := resource_capacity,
    resource_decay := resource_decay,
    blast_defense_level := blast_defense_level,
    combat_level := combat_level,
    interaction_mode := interaction_mode,
    minimap_mode := minimap_mode,
    interface_kind := interface_kind,
    multiple_attribute_mode := multiple_attribute_mode,
    minimap_color := minimap_color,
    language_dll_help := language_dll_help,
    language_dll_hotkey_text := language_dll_hotkey_text,
    hot_key := hot_key,
    recyclable := recyclable,
    enable_auto_gather := enable_auto_gather,
    create_doppelganger_on_death := create_doppelganger_on_death,
    resource_gather_group := resource_gather_group,
    occlusion_mode := occlusion_mode,
    obstruction_type := obstruction_type,
    obstruction_class := obstruction_class,
    trait := trait,
    civilization := civilization,
    nothing := nothing,
    selection_effect := selection_effect,
    editor_selection_colour := editor_selection_colour,
    outline_size_x := outline_size_x,
    outline_size_y := outline_size_y,
    outline_size_z := outline_size_z,
    scenario_triggers_1 := scenario_triggers_1,
    scenario_triggers_2 := scenario_triggers_2,
    resource_storages := resource_storages,
    damage_graphics := damage_graphics,
    selection_sound := selection_sound,
    dying_sound := dying_sound,
    wwise_train_sound_id := wwise_train_sound_id,
    wwise_damage_sound_id := wwise_damage_sound_id,
    wwise_selection_sound_id := wwise_selection_sound_id,
    wwise_dying_sound_id := wwise_dying_sound_id,
    old_attack_reaction := old_attack_reaction,
    convert_terrain := convert_terrain,
    name := name,
    copy_id := copy_id,
    base_id := base_id,
    speed := speed,
    dead_fish := dead_fish,
    bird := bird,
    type_50 := type_50,
    projectile := projectile,
    creatable := creatable,
    building := building }

/-- `Unit.to_bytes_84` — `/repo/src/genieutils/unit.py:1527-1635`.  The variable-length parts are encoded before the
fixed head, so their exceptions come first. -/
def Unit.toBytes84 (version : Version) (self : Unit) : Py Bytes := do
  let speed ← writeIf (self.type ≠ UnitType.AoeTrees ∧ self.type ≥ UnitType.Flag) writeFloat self.speed
  let dead_fish ← writeIf (self.type ≠ UnitType.AoeTrees ∧ self.type ≥ UnitType.Flag ∧ self.type ≥ UnitType.DeadFish) (fun x => writeClass DeadFish.toBytes x version) self.dead_fish
  let bird ← writeIf (self.type ≠ UnitType.AoeTrees ∧ self.type ≥ UnitType.Flag ∧ self.type ≥ UnitType.Bird) (fun x => writeClass Bird.toBytes x version) self.bird
  let type_50 ← writeIf (self.type ≠ UnitType.AoeTrees ∧ self.type ≥ UnitType.Flag ∧ self.type ≥ UnitType.Combatant) (fun x => writeClass Type50.toBytes x version) self.type_50
  let projectile ← writeIf (self.type ≠ UnitType.AoeTrees ∧ self.type ≥ UnitType.Flag ∧ self.type = UnitType.Projectile) (fun x => writeClass Projectile.toBytes x version) self.projectile
  let creatable ← writeIf (self.type ≠ UnitType.AoeTrees ∧ self.type ≥ UnitType.Flag ∧ self.type ≥ UnitType.Creatable) (fun x => writeClass Creatable.toBytes x version) self.creatable
  let building ← writeIf (self.type ≠ UnitType.AoeTrees ∧ self.type ≥ UnitType.Flag ∧ self.type = UnitType.Building) (fun x => writeClass Building.toBytes x version) self.building
  joinB [
    structPack UNIT_FORMAT ([.int self.type, .int self.id, .int self.language_dll_name, .int self.language_dll_creation,
      .int self.class_]
      ++ self.standing_graphic.map Val.int
      ++ [.int self.dying_graphic, .int self.undead_graphic, .int self.undead_mode, .int self.hit_points,
      .float self.line_of_sight, .int self.garrison_capacity, .float self.collision_size_x, .float self.collision_size_y,
      .float self.collision_size_z, .int self.train_sound, .int self.damage_sound, .int self.dead_unit_id,
      .int self.blood_unit_id, .int self.sort_number, .int self.can_be_built_on, .int self.icon_id,
      .int self.hide_in_editor, .int self.old_portrait_pict, .int self.enabled, .int self.disabled]
      ++ self.placement_side_terrain.map Val.int
      ++ self.placement_terrain.map Val.int
      ++ self.clearance_size.map Val.float
      ++ [.int self.hill_mode, .int self.fog_visibility, .int self.terrain_restriction, .int self.fly_mode,
      .int self.resource_capacity, .float self.resource_decay, .int self.blast_defense_level, .int self.combat_level,
      .int self.interaction_mode, .int self.minimap_mode, .int self.interface_kind, .float self.multiple_attribute_mode,
      .int self.minimap_color, .int self.language_dll_help, .int self.language_dll_hotkey_text, .int self.hot_key,
      .int self.recyclable, .int self.enable_auto_gather, .int self.create_doppelganger_on_death, .int self.resource_gather_group,
      .int self.occlusion_mode, .int self.obstruction_type, .int self.obstruction_class, .int self.trait,
      .int self.civilization, .int self.nothing, .int self.selection_effect, .int self.editor_selection_colour,
      .float self.outline_size_x, .float self.outline_size_y, .float self.outline_size_z, .int self.scenario_triggers_1,
      .int self.scenario_triggers_2]),
    joinB [
      writeClassArray ResourceStorage.toBytes self.resource_storages version,
      writeInt8 self.damage_graphics.length,
      writeClassArray DamageGraphic.toBytes self.damage_graphics version,
      writeInt16 self.selection_sound,
      writeInt16 self.dying_sound,
      writeInt32 self.wwise_train_sound_id,
      writeInt32 self.wwise_damage_sound_id,
      writeInt32 self.wwise_selection_sound_id,
      writeInt32 self.wwise_dying_sound_id,
      writeInt8 self.old_attack_reaction,
      writeInt8 self.convert_terrain,
      writeDebugString self.name,
      writeInt16 self.copy_id,
      writeInt16 self.base_id,
      .ok speed,
      .ok dead_fish,
      .ok bird,
      .ok type_50,
      .ok projectile,
      .ok creatable,
      .ok building]]

/-- `Unit.to_bytes_88` — `/repo/src/genieutils/unit.py:1637-1744`.  The variable-length parts are encoded before the
fixed head, so their exceptions come first. -/
def Unit.toBytes88 (version : Version) (self : Unit) : Py Bytes := do
  let speed ← writeIf (self.type ≠ UnitType.AoeTrees ∧ self.type ≥ UnitType.Flag) writeFloat self.speed
  let dead_fish ← writeIf (self.type ≠ UnitType.AoeTrees ∧ self.type ≥ UnitType.Flag ∧ self.type ≥ UnitType.DeadFish) (fun x => writeClass DeadFish.toBytes x version) self.dead_fish
  let bird ← writeIf (self.type ≠ UnitType.AoeTrees ∧ self.type ≥ UnitType.Flag ∧ self.type ≥ UnitType.Bird) (fun x => writeClass Bird.toBytes x version) self.bird
  let type_50 ← writeIf (self.type ≠ UnitType.AoeTrees ∧ self.type ≥ UnitType.Flag ∧ self.type ≥ UnitType.Combatant) (fun x => writeClass Type50.toBytes x version) self.type_50
  let projectile ← writeIf (self.type ≠ UnitType.AoeTrees ∧ self.type ≥ UnitType.Flag ∧ self.type = UnitType.Projectile) (fun x => writeClass Projectile.toBytes x version) self.projectile
  let creatable ← writeIf (self.type ≠ UnitType.AoeTrees ∧ self.type ≥ UnitType.Flag ∧ self.type ≥ UnitType.Creatable) (fun x => writeClass Creatable.toBytes x version) self.creatable
  let building ← writeIf (self.type ≠ UnitType.AoeTrees ∧ self.type ≥ UnitType.Flag ∧ self.type = UnitType.Building) (fun x => writeClass Building.toBytes x version) self.building
  joinB [
    structPack UNIT_FORMAT_88 ([.int self.type, .int self.id, .int self.language_dll_name, .int self.language_dll_creation,
      .int self.class_]
      ++ self.standing_graphic.map Val.int
      ++ [.int self.dying_graphic, .int self.undead_graphic, .int self.undead_mode, .int self.hit_points,
      .float self.line_of_sight, .int self.garrison_capacity, .float self.collision_size_x, .float self.collision_size_y,
      .float self.collision_size_z, .int self.train_sound, .int self.damage_sound, .int self.dead_unit_id,
      .int self.blood_unit_id, .int self.sort_number, .int self.can_be_built_on, .int self.icon_id,
      .int self.hide_in_editor, .int self.old_portrait_pict, .int self.enabled, .int self.disabled]
      ++ self.placement_side_terrain.map Val.int
      ++ self.placement_terrain.map Val.int
      ++ self.clearance_size.map Val.float
      ++ [.int self.hill_mode, .int self.fog_visibility, .int self.terrain_restriction, .int self.fly_mode,
      .int self.resource_capacity, .float self.resource_decay, .int self.blast_defense_level, .int self.combat_level,
      .int self.interaction_mode, .int self.minimap_mode, .int self.interface_kind, .float self.multiple_attribute_mode,
      .int self.minimap_color, .int self.language_dll_help, .int self.language_dll_hotkey_text, .int self.recyclable,
      .int self.enable_auto_gather, .int self.create_doppelganger_on_death, .int self.resource_gather_group, .int self.occlusion_mode,
      .int self.obstruction_type, .int self.obstruction_class, .int self.trait, .int self.civilization,
      .int self.nothing, .int self.selection_effect, .int self.editor_selection_colour, .float self.outline_size_x,
      .float self.outline_size_y, .float self.outline_size_z, .int self.scenario_triggers_1, .int self.scenario_triggers_2]),
    joinB [
      writeClassArray ResourceStorage.toBytes self.resource_storages version,
      writeInt8 self.damage_graphics.length,
      writeClassArray DamageGraphic.toBytes self.damage_graphics version,
      writeInt16 self.selection_sound,
      writeInt16 self.dying_sound,
      writeInt32 self.wwise_train_sound_id,
      writeInt32 self.wwise_damage_sound_id,
      writeInt32 self.wwise_selection_sound_id,
      writeInt32 self.wwise_dying_sound_id,
      writeInt8 self.old_attack_reaction,
      writeInt8 self.convert_terrain,
      writeDebugString self.name,
      writeInt16 self.copy_id,
      writeInt16 self.base_id,
      .ok speed,
      .ok dead_fish,
      .ok bird,
      .ok type_50,
      .ok projectile,
      .ok creatable,
      .ok building]]

/-- `Unit.from_bytes` — `/repo/src/genieutils/unit.py:1136-1139`. -/
def Unit.fromBytes : Reader Unit := do
  let version ← getVersion
  if version.ge .VER_88 then Unit.fromBytes88
  else Unit.fromBytes84

/-- `Unit.to_bytes` — `/repo/src/genieutils/unit.py:1522-1525`. -/
def Unit.toBytes (version : Version) (self : Unit) : Py Bytes :=
  if version.ge .VER_88 then Unit.toBytes88 version self
  else Unit.toBytes84 version self

end Genie
