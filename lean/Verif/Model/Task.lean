import Verif.Model.Common
/-!
# `/repo/src/genieutils/task.py`

Generated by `tools/gen_model.py` from the source text (reader and writer transcribed
independently, statement by statement).
-/

set_option linter.unusedVariables false

namespace Genie

/-- `/repo/src/genieutils/task.py:7` -/
def TASK_FORMAT : String := "<hhbhhhhhhhhfffbfbbhhbbbhhhhhhll"

/-- `/repo/src/genieutils/task.py:8` -/
def TASK_FORMAT_LENGTH : Nat := 67

/-- `/repo/src/genieutils/task.py:10` -/
def TASK_FORMAT_88 : String := "<hhbhhhhhhhhfffbfbbhhbbbhhhhhhllh"

/-- `struct.calcsize(FORMAT_88)` — `/repo/src/genieutils/task.py:11` -/
def TASK_FORMAT_LENGTH_88 : Nat := moduleCalcsize TASK_FORMAT_88

/-- `class Task` — `/repo/src/genieutils/task.py:14-47`. -/
structure Task where
  task_type : Int
  id : Int
  is_default : Int
  action_type : Int
  class_id : Int
  unit_id : Int
  terrain_id : Int
  resource_in : Int
  resource_multiplier : Int
  resource_out : Int
  unused_resource : Int
  work_value_1 : PyFloat
  work_value_2 : PyFloat
  work_range : PyFloat
  auto_search_targets : Int
  search_wait_time : PyFloat
  enable_targeting : Int
  combat_level_flag : Int
  gather_type : Int
  work_flag_2 : Int
  target_diplomacy : Int
  carry_check : Int
  pick_for_construction : Int
  moving_graphic_id : Int
  proceeding_graphic_id : Int
  working_graphic_id : Int
  carrying_graphic_id : Int
  resource_gathering_sound_id : Int
  resource_deposit_sound_id : Int
  wwise_resource_gathering_sound_id : Int
  wwise_resource_deposit_sound_id : Int
  enabled : Int
deriving DecidableEq, Inhabited

/-- `Task.from_bytes_84` — `/repo/src/genieutils/task.py:56-125`. -/
def Task.fromBytes84 : Reader Task := do
  let vs ← unpackFrom TASK_FORMAT TASK_FORMAT_LENGTH
  popInt vs fun task_type vs =>
  popInt vs fun id_ vs =>
  popInt vs fun is_default vs =>
  popInt vs fun action_type vs =>
  popInt vs fun class_id vs =>
  popInt vs fun unit_id vs =>
  popInt vs fun terrain_id vs =>
  popInt vs fun resource_in vs =>
  popInt vs fun resource_multiplier vs =>
  popInt vs fun resource_out vs =>
  popInt vs fun unused_resource vs =>
  popFloat vs fun work_value_1 vs =>
  popFloat vs fun work_value_2 vs =>
  popFloat vs fun work_range vs =>
  popInt vs fun auto_search_targets vs =>
  popFloat vs fun search_wait_time vs =>
  popInt vs fun enable_targeting vs =>
  popInt vs fun combat_level_flag vs =>
  popInt vs fun gather_type vs =>
  popInt vs fun work_flag_2 vs =>
  popInt vs fun target_diplomacy vs =>
  popInt vs fun carry_check vs =>
  popInt vs fun pick_for_construction vs =>
  popInt vs fun moving_graphic_id vs =>
  popInt vs fun proceeding_graphic_id vs =>
  popInt vs fun working_graphic_id vs =>
  popInt vs fun carrying_graphic_id vs =>
  popInt vs fun resource_gathering_sound_id vs =>
  popInt vs fun resource_deposit_sound_id vs =>
  popInt vs fun wwise_resource_gathering_sound_id vs =>
  popInt vs fun wwise_resource_deposit_sound_id vs =>
  popDone vs do
  return {
    task_type := task_type,
    id := id_,
    is_default := is_default,
    action_type := action_type,
    class_id := class_id,
    unit_id := unit_id,
    terrain_id := terrain_id,
    resource_in := resource_in,
    resource_multiplier := resource_multiplier,
    resource_out := resource_out,
    unused_resource := unused_resource,
    work_value_1 := work_value_1,
    work_value_2 := work_value_2,
    work_range := work_range,
    auto_search_targets := auto_search_targets,
    search_wait_time := search_wait_time,
    enable_targeting := enable_targeting,
    combat_level_flag := combat_level_flag,
    gather_type := gather_type,
    work_flag_2 := work_flag_2,
    target_diplomacy := target_diplomacy,
    carry_check := carry_check,
    pick_for_construction := pick_for_construction,
    moving_graphic_id := moving_graphic_id,
    proceeding_graphic_id := proceeding_graphic_id,
    working_graphic_id := working_graphic_id,
    carrying_graphic_id := carrying_graphic_id,
    resource_gathering_sound_id := resource_gathering_sound_id,
    resource_deposit_sound_id := resource_deposit_sound_id,
    wwise_resource_gathering_sound_id := wwise_resource_gathering_sound_id,
    wwise_resource_deposit_sound_id := wwise_resource_deposit_sound_id,
    enabled := -1 }

/-- `Task.from_bytes_88` — `/repo/src/genieutils/task.py:128-198`. -/
def Task.fromBytes88 : Reader Task := do
  let vs ← unpackFrom TASK_FORMAT_88 TASK_FORMAT_LENGTH_88
  popInt vs fun task_type vs =>
  popInt vs fun id_ vs =>
  popInt vs fun is_default vs =>
  popInt vs fun action_type vs =>
  popInt vs fun class_id vs =>
  popInt vs fun unit_id vs =>
  popInt vs fun terrain_id vs =>
  popInt vs fun resource_in vs =>
  popInt vs fun resource_multiplier vs =>
  popInt vs fun resource_out vs =>
  popInt vs fun unused_resource vs =>
  popFloat vs fun work_value_1 vs =>
  popFloat vs fun work_value_2 vs =>
  popFloat vs fun work_range vs =>
  popInt vs fun auto_search_targets vs =>
  popFloat vs fun search_wait_time vs =>
  popInt vs fun enable_targeting vs =>
  popInt vs fun combat_level_flag vs =>
  popInt vs fun gather_type vs =>
  popInt vs fun work_flag_2 vs =>
  popInt vs fun target_diplomacy vs =>
  popInt vs fun carry_check vs =>
  popInt vs fun pick_for_construction vs =>
  popInt vs fun moving_graphic_id vs =>
  popInt vs fun proceeding_graphic_id vs =>
  popInt vs fun working_graphic_id vs =>
  popInt vs fun carrying_graphic_id vs =>
  popInt vs fun resource_gathering_sound_id vs =>
  popInt vs fun resource_deposit_sound_id vs =>
  popInt vs fun wwise_resource_gathering_sound_id vs =>
  popInt vs fun wwise_resource_deposit_sound_id vs =>
  popInt vs fun enabled vs =>
  popDone vs do
  return {
    task_type := task_type,
    id := id_,
    is_default := is_default,
    action_type := action_type,
    class_id := class_id,
    unit_id := unit_id,
    terrain_id := terrain_id,
    resource_in := resource_in,
    resource_multiplier := resource_multiplier,
    resource_out := resource_out,
    unused_resource := unused_resource,
    work_value_1 := work_value_1,
    work_value_2 := work_value_2,
    work_range := work_range,
    auto_search_targets := auto_search_targets,
    search_wait_time := search_wait_time,
    enable_targeting := enable_targeting,
    combat_level_flag := combat_level_flag,
    gather_type := gather_type,
    work_flag_2 := work_flag_2,
    target_diplomacy := target_diplomacy,
    carry_check := carry_check,
    pick_for_construction := pick_for_construction,
    moving_graphic_id := moving_graphic_id,
    proceeding_graphic_id := proceeding_graphic_id,
    working_graphic_id := working_graphic_id,
    carrying_graphic_id := carrying_graphic_id,
    resource_gathering_sound_id := resource_gathering_sound_id,
    resource_deposit_sound_id := resource_deposit_sound_id,
    wwise_resource_gathering_sound_id := wwise_resource_gathering_sound_id,
    wwise_resource_deposit_sound_id := wwise_resource_deposit_sound_id,
    enabled := enabled }

/-- `Task.to_bytes_84` — `/repo/src/genieutils/task.py:206-239`. -/
def Task.toBytes84 (version : Version) (self : Task) : Py Bytes :=
  structPack TASK_FORMAT ([.int self.task_type, .int self.id, .int self.is_default, .int self.action_type,
      .int self.class_id, .int self.unit_id, .int self.terrain_id, .int self.resource_in,
      .int self.resource_multiplier, .int self.resource_out, .int self.unused_resource, .float self.work_value_1,
      .float self.work_value_2, .float self.work_range, .int self.auto_search_targets, .float self.search_wait_time,
      .int self.enable_targeting, .int self.combat_level_flag, .int self.gather_type, .int self.work_flag_2,
      .int self.target_diplomacy, .int self.carry_check, .int self.pick_for_construction, .int self.moving_graphic_id,
      .int self.proceeding_graphic_id, .int self.working_graphic_id, .int self.carrying_graphic_id, .int self.resource_gathering_sound_id,
      .int self.resource_deposit_sound_id, .int self.wwise_resource_gathering_sound_id, .int self.wwise_resource_deposit_sound_id])

/-- `Task.to_bytes_88` — `/repo/src/genieutils/task.py:242-276`. -/
def Task.toBytes88 (version : Version) (self : Task) : Py Bytes :=
  structPack TASK_FORMAT_88 ([.int self.task_type, .int self.id, .int self.is_default, .int self.action_type,
      .int self.class_id, .int self.unit_id, .int self.terrain_id, .int self.resource_in,
      .int self.resource_multiplier, .int self.resource_out, .int self.unused_resource, .float self.work_value_1,
      .float self.work_value_2, .float self.work_range, .int self.auto_search_targets, .float self.search_wait_time,
      .int self.enable_targeting, .int self.combat_level_flag, .int self.gather_type, .int self.work_flag_2,
      .int self.target_diplomacy, .int self.carry_check, .int self.pick_for_construction, .int self.moving_graphic_id,
      .int self.proceeding_graphic_id, .int self.working_graphic_id, .int self.carrying_graphic_id, .int self.resource_gathering_sound_id,
      .int self.resource_deposit_sound_id, .int self.wwise_resource_gathering_sound_id, .int self.wwise_resource_deposit_sound_id, .int self.enabled])

/-- `Task.from_bytes` — `/repo/src/genieutils/task.py:50-53`. -/
def Task.fromBytes : Reader Task := do
  let version ← getVersion
  if version.ge .VER_88 then Task.fromBytes88
  else Task.fromBytes84

/-- `Task.to_bytes` — `/repo/src/genieutils/task.py:200-203`. -/
def Task.toBytes (version : Version) (self : Task) : Py Bytes :=
  if version.ge .VER_88 then Task.toBytes88 version self
  else Task.toBytes84 version self

end Genie
