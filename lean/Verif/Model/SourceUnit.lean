import Verif.Py.Ast
/-!
# The source code of `/repo/src/genieutils`

Modules: `task.py`, `unit.py`.  Written by `tools/gen_source.py` from the syntax trees that Python's parser gives; annotations and docstrings have no effect and are
left out; `DatFile.parse`, `DatFile.save` and `scripts.py` are in `Verif/Model/SourceIo.lean`.
-/

namespace Genie.Src

/-- `Task.from_bytes` — `/repo/src/genieutils/task.py:50-53`. -/
def Task.src_from_bytes : Fun where
  name := n!"from_bytes"
  kind := .classMethod
  params := [(n!"cls", .argNil), (n!"content", .argNil)]
  body :=
    (.ite (.compare (.attr (.name n!"content") n!"version") (.cmp .ge (.attr (.name n!"Version") n!"VER_88") .cmpNil))
        (.ret (.call (.attr (.name n!"cls") n!"from_bytes_88") (.arg (.name n!"content") .argNil)))
        .done
    (.ret (.call (.attr (.name n!"cls") n!"from_bytes_84") (.arg (.name n!"content") .argNil))))

/-- `Task.from_bytes_84` — `/repo/src/genieutils/task.py:56-125`. -/
def Task.src_from_bytes_84 : Fun where
  name := n!"from_bytes_84"
  kind := .classMethod
  params := [(n!"cls", .argNil), (n!"content", .argNil)]
  body :=
    (.unpack [n!"task_type", n!"id_", n!"is_default", n!"action_type", n!"class_id", n!"unit_id", n!"terrain_id", n!"resource_in", n!"resource_multiplier", n!"resource_out", n!"unused_resource", n!"work_value_1", n!"work_value_2", n!"work_range", n!"auto_search_targets", n!"search_wait_time", n!"enable_targeting", n!"combat_level_flag", n!"gather_type", n!"work_flag_2", n!"target_diplomacy", n!"carry_check", n!"pick_for_construction", n!"moving_graphic_id", n!"proceeding_graphic_id", n!"working_graphic_id", n!"carrying_graphic_id", n!"resource_gathering_sound_id", n!"resource_deposit_sound_id", n!"wwise_resource_gathering_sound_id", n!"wwise_resource_deposit_sound_id"] (.call (.attr (.name n!"struct") n!"unpack") (.arg (.name n!"FORMAT") (.arg (.call (.attr (.name n!"content") n!"consume_range") (.arg (.name n!"FORMAT_LENGTH") .argNil)) .argNil)))
    (.ret (.call (.name n!"cls") (.kw n!"task_type" (.name n!"task_type") (.kw n!"id" (.name n!"id_") (.kw n!"is_default" (.name n!"is_default") (.kw n!"action_type" (.name n!"action_type") (.kw n!"class_id" (.name n!"class_id") (.kw n!"unit_id" (.name n!"unit_id") (.kw n!"terrain_id" (.name n!"terrain_id") (.kw n!"resource_in" (.name n!"resource_in") (.kw n!"resource_multiplier" (.name n!"resource_multiplier") (.kw n!"resource_out" (.name n!"resource_out") (.kw n!"unused_resource" (.name n!"unused_resource") (.kw n!"work_value_1" (.name n!"work_value_1") (.kw n!"work_value_2" (.name n!"work_value_2") (.kw n!"work_range" (.name n!"work_range") (.kw n!"auto_search_targets" (.name n!"auto_search_targets") (.kw n!"search_wait_time" (.name n!"search_wait_time") (.kw n!"enable_targeting" (.name n!"enable_targeting") (.kw n!"combat_level_flag" (.name n!"combat_level_flag") (.kw n!"gather_type" (.name n!"gather_type") (.kw n!"work_flag_2" (.name n!"work_flag_2") (.kw n!"target_diplomacy" (.name n!"target_diplomacy") (.kw n!"carry_check" (.name n!"carry_check") (.kw n!"pick_for_construction" (.name n!"pick_for_construction") (.kw n!"moving_graphic_id" (.name n!"moving_graphic_id") (.kw n!"proceeding_graphic_id" (.name n!"proceeding_graphic_id") (.kw n!"working_graphic_id" (.name n!"working_graphic_id") (.kw n!"carrying_graphic_id" (.name n!"carrying_graphic_id") (.kw n!"resource_gathering_sound_id" (.name n!"resource_gathering_sound_id") (.kw n!"resource_deposit_sound_id" (.name n!"resource_deposit_sound_id") (.kw n!"wwise_resource_gathering_sound_id" (.name n!"wwise_resource_gathering_sound_id") (.kw n!"wwise_resource_deposit_sound_id" (.name n!"wwise_resource_deposit_sound_id") (.kw n!"enabled" (.neg (.int 1)) .argNil)))))))))))))))))))))))))))))))))))

/-- `Task.from_bytes_88` — `/repo/src/genieutils/task.py:128-198`. -/
def Task.src_from_bytes_88 : Fun where
  name := n!"from_bytes_88"
  kind := .classMethod
  params := [(n!"cls", .argNil), (n!"content", .argNil)]
  body :=
    (.unpack [n!"task_type", n!"id_", n!"is_default", n!"action_type", n!"class_id", n!"unit_id", n!"terrain_id", n!"resource_in", n!"resource_multiplier", n!"resource_out", n!"unused_resource", n!"work_value_1", n!"work_value_2", n!"work_range", n!"auto_search_targets", n!"search_wait_time", n!"enable_targeting", n!"combat_level_flag", n!"gather_type", n!"work_flag_2", n!"target_diplomacy", n!"carry_check", n!"pick_for_construction", n!"moving_graphic_id", n!"proceeding_graphic_id", n!"working_graphic_id", n!"carrying_graphic_id", n!"resource_gathering_sound_id", n!"resource_deposit_sound_id", n!"wwise_resource_gathering_sound_id", n!"wwise_resource_deposit_sound_id", n!"enabled"] (.call (.attr (.name n!"struct") n!"unpack") (.arg (.name n!"FORMAT_88") (.arg (.call (.attr (.name n!"content") n!"consume_range") (.arg (.name n!"FORMAT_LENGTH_88") .argNil)) .argNil)))
    (.ret (.call (.name n!"cls") (.kw n!"task_type" (.name n!"task_type") (.kw n!"id" (.name n!"id_") (.kw n!"is_default" (.name n!"is_default") (.kw n!"action_type" (.name n!"action_type") (.kw n!"class_id" (.name n!"class_id") (.kw n!"unit_id" (.name n!"unit_id") (.kw n!"terrain_id" (.name n!"terrain_id") (.kw n!"resource_in" (.name n!"resource_in") (.kw n!"resource_multiplier" (.name n!"resource_multiplier") (.kw n!"resource_out" (.name n!"resource_out") (.kw n!"unused_resource" (.name n!"unused_resource") (.kw n!"work_value_1" (.name n!"work_value_1") (.kw n!"work_value_2" (.name n!"work_value_2") (.kw n!"work_range" (.name n!"work_range") (.kw n!"auto_search_targets" (.name n!"auto_search_targets") (.kw n!"search_wait_time" (.name n!"search_wait_time") (.kw n!"enable_targeting" (.name n!"enable_targeting") (.kw n!"combat_level_flag" (.name n!"combat_level_flag") (.kw n!"gather_type" (.name n!"gather_type") (.kw n!"work_flag_2" (.name n!"work_flag_2") (.kw n!"target_diplomacy" (.name n!"target_diplomacy") (.kw n!"carry_check" (.name n!"carry_check") (.kw n!"pick_for_construction" (.name n!"pick_for_construction") (.kw n!"moving_graphic_id" (.name n!"moving_graphic_id") (.kw n!"proceeding_graphic_id" (.name n!"proceeding_graphic_id") (.kw n!"working_graphic_id" (.name n!"working_graphic_id") (.kw n!"carrying_graphic_id" (.name n!"carrying_graphic_id") (.kw n!"resource_gathering_sound_id" (.name n!"resource_gathering_sound_id") (.kw n!"resource_deposit_sound_id" (.name n!"resource_deposit_sound_id") (.kw n!"wwise_resource_gathering_sound_id" (.name n!"wwise_resource_gathering_sound_id") (.kw n!"wwise_resource_deposit_sound_id" (.name n!"wwise_resource_deposit_sound_id") (.kw n!"enabled" (.name n!"enabled") .argNil)))))))))))))))))))))))))))))))))))

/-- `Task.to_bytes` — `/repo/src/genieutils/task.py:200-203`. -/
def Task.src_to_bytes : Fun where
  name := n!"to_bytes"
  kind := .method
  params := [(n!"self", .argNil), (n!"version", .argNil)]
  body :=
    (.ite (.compare (.name n!"version") (.cmp .ge (.attr (.name n!"Version") n!"VER_88") .cmpNil))
        (.ret (.call (.attr (.name n!"self") n!"to_bytes_88") (.arg (.name n!"version") .argNil)))
        .done
    (.ret (.call (.attr (.name n!"self") n!"to_bytes_84") (.arg (.name n!"version") .argNil))))

/-- `Task.to_bytes_84` — `/repo/src/genieutils/task.py:206-239`. -/
def Task.src_to_bytes_84 : Fun where
  name := n!"to_bytes_84"
  kind := .method
  params := [(n!"self", .argNil), (n!"version", .argNil)]
  body :=
    (.ret (.call (.attr (.name n!"struct") n!"pack") (.arg (.name n!"FORMAT") (.arg (.attr (.name n!"self") n!"task_type") (.arg (.attr (.name n!"self") n!"id") (.arg (.attr (.name n!"self") n!"is_default") (.arg (.attr (.name n!"self") n!"action_type") (.arg (.attr (.name n!"self") n!"class_id") (.arg (.attr (.name n!"self") n!"unit_id") (.arg (.attr (.name n!"self") n!"terrain_id") (.arg (.attr (.name n!"self") n!"resource_in") (.arg (.attr (.name n!"self") n!"resource_multiplier") (.arg (.attr (.name n!"self") n!"resource_out") (.arg (.attr (.name n!"self") n!"unused_resource") (.arg (.attr (.name n!"self") n!"work_value_1") (.arg (.attr (.name n!"self") n!"work_value_2") (.arg (.attr (.name n!"self") n!"work_range") (.arg (.attr (.name n!"self") n!"auto_search_targets") (.arg (.attr (.name n!"self") n!"search_wait_time") (.arg (.attr (.name n!"self") n!"enable_targeting") (.arg (.attr (.name n!"self") n!"combat_level_flag") (.arg (.attr (.name n!"self") n!"gather_type") (.arg (.attr (.name n!"self") n!"work_flag_2") (.arg (.attr (.name n!"self") n!"target_diplomacy") (.arg (.attr (.name n!"self") n!"carry_check") (.arg (.attr (.name n!"self") n!"pick_for_construction") (.arg (.attr (.name n!"self") n!"moving_graphic_id") (.arg (.attr (.name n!"self") n!"proceeding_graphic_id") (.arg (.attr (.name n!"self") n!"working_graphic_id") (.arg (.attr (.name n!"self") n!"carrying_graphic_id") (.arg (.attr (.name n!"self") n!"resource_gathering_sound_id") (.arg (.attr (.name n!"self") n!"resource_deposit_sound_id") (.arg (.attr (.name n!"self") n!"wwise_resource_gathering_sound_id") (.arg (.attr (.name n!"self") n!"wwise_resource_deposit_sound_id") .argNil))))))))))))))))))))))))))))))))))

/-- `Task.to_bytes_88` — `/repo/src/genieutils/task.py:242-276`. -/
def Task.src_to_bytes_88 : Fun where
  name := n!"to_bytes_88"
  kind := .method
  params := [(n!"self", .argNil), (n!"version", .argNil)]
  body :=
    (.ret (.call (.attr (.name n!"struct") n!"pack") (.arg (.name n!"FORMAT_88") (.arg (.attr (.name n!"self") n!"task_type") (.arg (.attr (.name n!"self") n!"id") (.arg (.attr (.name n!"self") n!"is_default") (.arg (.attr (.name n!"self") n!"action_type") (.arg (.attr (.name n!"self") n!"class_id") (.arg (.attr (.name n!"self") n!"unit_id") (.arg (.attr (.name n!"self") n!"terrain_id") (.arg (.attr (.name n!"self") n!"resource_in") (.arg (.attr (.name n!"self") n!"resource_multiplier") (.arg (.attr (.name n!"self") n!"resource_out") (.arg (.attr (.name n!"self") n!"unused_resource") (.arg (.attr (.name n!"self") n!"work_value_1") (.arg (.attr (.name n!"self") n!"work_value_2") (.arg (.attr (.name n!"self") n!"work_range") (.arg (.attr (.name n!"self") n!"auto_search_targets") (.arg (.attr (.name n!"self") n!"search_wait_time") (.arg (.attr (.name n!"self") n!"enable_targeting") (.arg (.attr (.name n!"self") n!"combat_level_flag") (.arg (.attr (.name n!"self") n!"gather_type") (.arg (.attr (.name n!"self") n!"work_flag_2") (.arg (.attr (.name n!"self") n!"target_diplomacy") (.arg (.attr (.name n!"self") n!"carry_check") (.arg (.attr (.name n!"self") n!"pick_for_construction") (.arg (.attr (.name n!"self") n!"moving_graphic_id") (.arg (.attr (.name n!"self") n!"proceeding_graphic_id") (.arg (.attr (.name n!"self") n!"working_graphic_id") (.arg (.attr (.name n!"self") n!"carrying_graphic_id") (.arg (.attr (.name n!"self") n!"resource_gathering_sound_id") (.arg (.attr (.name n!"self") n!"resource_deposit_sound_id") (.arg (.attr (.name n!"self") n!"wwise_resource_gathering_sound_id") (.arg (.attr (.name n!"self") n!"wwise_resource_deposit_sound_id") (.arg (.attr (.name n!"self") n!"enabled") .argNil)))))))))))))))))))))))))))))))))))

/-- `class Task` — `/repo/src/genieutils/task.py:15-276`. -/
def Task.src : Cls where
  name := n!"Task"
  module := n!"task"
  base := n!"GenieClass"
  dataclass := true
  fields := [(n!"task_type", .argNil), (n!"id", .argNil), (n!"is_default", .argNil), (n!"action_type", .argNil), (n!"class_id", .argNil), (n!"unit_id", .argNil), (n!"terrain_id", .argNil), (n!"resource_in", .argNil), (n!"resource_multiplier", .argNil), (n!"resource_out", .argNil), (n!"unused_resource", .argNil), (n!"work_value_1", .argNil), (n!"work_value_2", .argNil), (n!"work_range", .argNil), (n!"auto_search_targets", .argNil), (n!"search_wait_time", .argNil), (n!"enable_targeting", .argNil), (n!"combat_level_flag", .argNil), (n!"gather_type", .argNil), (n!"work_flag_2", .argNil), (n!"target_diplomacy", .argNil), (n!"carry_check", .argNil), (n!"pick_for_construction", .argNil), (n!"moving_graphic_id", .argNil), (n!"proceeding_graphic_id", .argNil), (n!"working_graphic_id", .argNil), (n!"carrying_graphic_id", .argNil), (n!"resource_gathering_sound_id", .argNil), (n!"resource_deposit_sound_id", .argNil), (n!"wwise_resource_gathering_sound_id", .argNil), (n!"wwise_resource_deposit_sound_id", .argNil), (n!"enabled", .argNil)]
  vars := []
  funs := [Task.src_from_bytes, Task.src_from_bytes_84, Task.src_from_bytes_88, Task.src_to_bytes, Task.src_to_bytes_84, Task.src_to_bytes_88]

/-- The names of the module `/repo/src/genieutils/task.py`. -/
def module_task : Module where
  name := n!"task"
  globals := [
    (n!"struct", .lib),
    (n!"dataclass", .lib),
    (n!"ByteHandler", .from_ n!"common"),
    (n!"GenieClass", .from_ n!"common"),
    (n!"Version", .from_ n!"versions"),
    (n!"FORMAT", .const (.str "<hhbhhhhhhhhfffbfbbhhbbbhhhhhhll")),
    (n!"FORMAT_LENGTH", .const (.int 67)),
    (n!"FORMAT_88", .const (.str "<hhbhhhhhhhhfffbfbbhhbbbhhhhhhllh")),
    (n!"FORMAT_LENGTH_88", .const (.call (.attr (.name n!"struct") n!"calcsize") (.arg (.name n!"FORMAT_88") .argNil))),
    (n!"Task", .cls)]

/-- `ResourceStorage.from_bytes` — `/repo/src/genieutils/unit.py:19-26`. -/
def ResourceStorage.src_from_bytes : Fun where
  name := n!"from_bytes"
  kind := .classMethod
  params := [(n!"cls", .argNil), (n!"content", .argNil)]
  body :=
    (.unpack [n!"type_", n!"amount", n!"flag"] (.call (.attr (.name n!"struct") n!"unpack") (.arg (.name n!"RESOURCE_STORAGE_FORMAT") (.arg (.call (.attr (.name n!"content") n!"consume_range") (.arg (.name n!"RESOURCE_STORAGE_FORMAT_LENGTH") .argNil)) .argNil)))
    (.ret (.call (.name n!"cls") (.kw n!"type" (.name n!"type_") (.kw n!"amount" (.name n!"amount") (.kw n!"flag" (.name n!"flag") .argNil))))))

/-- `ResourceStorage.to_bytes` — `/repo/src/genieutils/unit.py:28-29`. -/
def ResourceStorage.src_to_bytes : Fun where
  name := n!"to_bytes"
  kind := .method
  params := [(n!"self", .argNil), (n!"version", .argNil)]
  body :=
    (.ret (.call (.attr (.name n!"struct") n!"pack") (.arg (.name n!"RESOURCE_STORAGE_FORMAT") (.arg (.attr (.name n!"self") n!"type") (.arg (.attr (.name n!"self") n!"amount") (.arg (.attr (.name n!"self") n!"flag") .argNil))))))

/-- `class ResourceStorage` — `/repo/src/genieutils/unit.py:13-29`. -/
def ResourceStorage.src : Cls where
  name := n!"ResourceStorage"
  module := n!"unit"
  base := n!"GenieClass"
  dataclass := true
  fields := [(n!"type", .argNil), (n!"amount", .argNil), (n!"flag", .argNil)]
  vars := []
  funs := [ResourceStorage.src_from_bytes, ResourceStorage.src_to_bytes]

/-- `DamageGraphic.from_bytes` — `/repo/src/genieutils/unit.py:43-51`. -/
def DamageGraphic.src_from_bytes : Fun where
  name := n!"from_bytes"
  kind := .classMethod
  params := [(n!"cls", .argNil), (n!"content", .argNil)]
  body :=
    (.unpack [n!"graphic_id", n!"damage_percent", n!"apply_mode"] (.call (.attr (.name n!"struct") n!"unpack") (.arg (.name n!"DAMAGE_GRAPHIC_FORMAT") (.arg (.call (.attr (.name n!"content") n!"consume_range") (.arg (.name n!"DAMAGE_GRAPHIC_FORMAT_LENGTH") .argNil)) .argNil)))
    (.ret (.call (.name n!"cls") (.kw n!"graphic_id" (.name n!"graphic_id") (.kw n!"damage_percent" (.name n!"damage_percent") (.kw n!"apply_mode" (.name n!"apply_mode") .argNil))))))

/-- `DamageGraphic.to_bytes` — `/repo/src/genieutils/unit.py:53-54`. -/
def DamageGraphic.src_to_bytes : Fun where
  name := n!"to_bytes"
  kind := .method
  params := [(n!"self", .argNil), (n!"version", .argNil)]
  body :=
    (.ret (.call (.attr (.name n!"struct") n!"pack") (.arg (.name n!"DAMAGE_GRAPHIC_FORMAT") (.arg (.attr (.name n!"self") n!"graphic_id") (.arg (.attr (.name n!"self") n!"damage_percent") (.arg (.attr (.name n!"self") n!"apply_mode") .argNil))))))

/-- `class DamageGraphic` — `/repo/src/genieutils/unit.py:37-54`. -/
def DamageGraphic.src : Cls where
  name := n!"DamageGraphic"
  module := n!"unit"
  base := n!"GenieClass"
  dataclass := true
  fields := [(n!"graphic_id", .argNil), (n!"damage_percent", .argNil), (n!"apply_mode", .argNil)]
  vars := []
  funs := [DamageGraphic.src_from_bytes, DamageGraphic.src_to_bytes]

/-- `DeadFish.from_bytes` — `/repo/src/genieutils/unit.py:79-110`. -/
def DeadFish.src_from_bytes : Fun where
  name := n!"from_bytes"
  kind := .classMethod
  params := [(n!"cls", .argNil), (n!"content", .argNil)]
  body :=
    (.unpack [n!"walking_graphic", n!"running_graphic", n!"rotation_speed", n!"old_size_class", n!"tracking_unit", n!"tracking_unit_mode", n!"tracking_unit_density", n!"old_move_algorithm", n!"turn_radius", n!"turn_radius_speed", n!"max_yaw_per_second_moving", n!"stationary_yaw_revolution_time", n!"max_yaw_per_second_stationary", n!"min_collision_size_multiplier"] (.call (.attr (.name n!"struct") n!"unpack") (.arg (.name n!"DEAD_FISH_FORMAT") (.arg (.call (.attr (.name n!"content") n!"consume_range") (.arg (.name n!"DEAD_FISH_FORMAT_LENGTH") .argNil)) .argNil)))
    (.ret (.call (.name n!"cls") (.kw n!"walking_graphic" (.name n!"walking_graphic") (.kw n!"running_graphic" (.name n!"running_graphic") (.kw n!"rotation_speed" (.name n!"rotation_speed") (.kw n!"old_size_class" (.name n!"old_size_class") (.kw n!"tracking_unit" (.name n!"tracking_unit") (.kw n!"tracking_unit_mode" (.name n!"tracking_unit_mode") (.kw n!"tracking_unit_density" (.name n!"tracking_unit_density") (.kw n!"old_move_algorithm" (.name n!"old_move_algorithm") (.kw n!"turn_radius" (.name n!"turn_radius") (.kw n!"turn_radius_speed" (.name n!"turn_radius_speed") (.kw n!"max_yaw_per_second_moving" (.name n!"max_yaw_per_second_moving") (.kw n!"stationary_yaw_revolution_time" (.name n!"stationary_yaw_revolution_time") (.kw n!"max_yaw_per_second_stationary" (.name n!"max_yaw_per_second_stationary") (.kw n!"min_collision_size_multiplier" (.name n!"min_collision_size_multiplier") .argNil)))))))))))))))))

/-- `DeadFish.to_bytes` — `/repo/src/genieutils/unit.py:112-128`. -/
def DeadFish.src_to_bytes : Fun where
  name := n!"to_bytes"
  kind := .method
  params := [(n!"self", .argNil), (n!"version", .argNil)]
  body :=
    (.ret (.call (.attr (.name n!"struct") n!"pack") (.arg (.name n!"DEAD_FISH_FORMAT") (.arg (.attr (.name n!"self") n!"walking_graphic") (.arg (.attr (.name n!"self") n!"running_graphic") (.arg (.attr (.name n!"self") n!"rotation_speed") (.arg (.attr (.name n!"self") n!"old_size_class") (.arg (.attr (.name n!"self") n!"tracking_unit") (.arg (.attr (.name n!"self") n!"tracking_unit_mode") (.arg (.attr (.name n!"self") n!"tracking_unit_density") (.arg (.attr (.name n!"self") n!"old_move_algorithm") (.arg (.attr (.name n!"self") n!"turn_radius") (.arg (.attr (.name n!"self") n!"turn_radius_speed") (.arg (.attr (.name n!"self") n!"max_yaw_per_second_moving") (.arg (.attr (.name n!"self") n!"stationary_yaw_revolution_time") (.arg (.attr (.name n!"self") n!"max_yaw_per_second_stationary") (.arg (.attr (.name n!"self") n!"min_collision_size_multiplier") .argNil)))))))))))))))))

/-- `class DeadFish` — `/repo/src/genieutils/unit.py:62-128`. -/
def DeadFish.src : Cls where
  name := n!"DeadFish"
  module := n!"unit"
  base := n!"GenieClass"
  dataclass := true
  fields := [(n!"walking_graphic", .argNil), (n!"running_graphic", .argNil), (n!"rotation_speed", .argNil), (n!"old_size_class", .argNil), (n!"tracking_unit", .argNil), (n!"tracking_unit_mode", .argNil), (n!"tracking_unit_density", .argNil), (n!"old_move_algorithm", .argNil), (n!"turn_radius", .argNil), (n!"turn_radius_speed", .argNil), (n!"max_yaw_per_second_moving", .argNil), (n!"stationary_yaw_revolution_time", .argNil), (n!"max_yaw_per_second_stationary", .argNil), (n!"min_collision_size_multiplier", .argNil)]
  vars := []
  funs := [DeadFish.src_from_bytes, DeadFish.src_to_bytes]

/-- `Bird.from_bytes` — `/repo/src/genieutils/unit.py:146-174`. -/
def Bird.src_from_bytes : Fun where
  name := n!"from_bytes"
  kind := .classMethod
  params := [(n!"cls", .argNil), (n!"content", .argNil)]
  body :=
    (.assign n!"default_task_id" (.call (.attr (.name n!"content") n!"read_int_16") .argNil)
    (.assign n!"search_radius" (.call (.attr (.name n!"content") n!"read_float") .argNil)
    (.assign n!"work_rate" (.call (.attr (.name n!"content") n!"read_float") .argNil)
    (.assign n!"drop_sites_size" (.int 3)
    (.ite (.compare (.attr (.name n!"content") n!"version") (.cmp .gt (.attr (.name n!"Version") n!"VER_77") .cmpNil))
        (.assign n!"drop_sites_size" (.call (.attr (.name n!"content") n!"read_int_16") .argNil)
        .done)
        .done
    (.assign n!"drop_sites" (.call (.attr (.name n!"content") n!"read_int_16_array") (.arg (.name n!"drop_sites_size") .argNil))
    (.assign n!"task_swap_group" (.call (.attr (.name n!"content") n!"read_int_8") .argNil)
    (.assign n!"attack_sound" (.call (.attr (.name n!"content") n!"read_int_16") .argNil)
    (.assign n!"move_sound" (.call (.attr (.name n!"content") n!"read_int_16") .argNil)
    (.assign n!"wwise_attack_sound_id" (.call (.attr (.name n!"content") n!"read_int_32") .argNil)
    (.assign n!"wwise_move_sound_id" (.call (.attr (.name n!"content") n!"read_int_32") .argNil)
    (.assign n!"run_pattern" (.call (.attr (.name n!"content") n!"read_int_8") .argNil)
    (.assign n!"task_size" (.call (.attr (.name n!"content") n!"read_int_16") .argNil)
    (.assign n!"tasks" (.call (.attr (.name n!"content") n!"read_class_array") (.arg (.name n!"Task") (.arg (.name n!"task_size") .argNil)))
    (.ret (.call (.name n!"cls") (.kw n!"default_task_id" (.name n!"default_task_id") (.kw n!"search_radius" (.name n!"search_radius") (.kw n!"work_rate" (.name n!"work_rate") (.kw n!"drop_sites" (.name n!"drop_sites") (.kw n!"task_swap_group" (.name n!"task_swap_group") (.kw n!"attack_sound" (.name n!"attack_sound") (.kw n!"move_sound" (.name n!"move_sound") (.kw n!"wwise_attack_sound_id" (.name n!"wwise_attack_sound_id") (.kw n!"wwise_move_sound_id" (.name n!"wwise_move_sound_id") (.kw n!"run_pattern" (.name n!"run_pattern") (.kw n!"tasks" (.name n!"tasks") .argNil)))))))))))))))))))))))))))

/-- `Bird.to_bytes` — `/repo/src/genieutils/unit.py:176-191`. -/
def Bird.src_to_bytes : Fun where
  name := n!"to_bytes"
  kind := .method
  params := [(n!"self", .argNil), (n!"version", .argNil)]
  body :=
    (.ret (.call (.attr (.bytes []) n!"join") (.arg (.list (.arg (.call (.attr (.name n!"self") n!"write_int_16") (.arg (.attr (.name n!"self") n!"default_task_id") .argNil)) (.arg (.call (.attr (.name n!"self") n!"write_float") (.arg (.attr (.name n!"self") n!"search_radius") .argNil)) (.arg (.call (.attr (.name n!"self") n!"write_float") (.arg (.attr (.name n!"self") n!"work_rate") .argNil)) (.arg (.call (.attr (.name n!"self") n!"write_int_16") (.arg (.call (.name n!"len") (.arg (.attr (.name n!"self") n!"drop_sites") .argNil)) (.kw n!"if_" (.compare (.name n!"version") (.cmp .ge (.attr (.name n!"Version") n!"VER_78") .cmpNil)) .argNil))) (.arg (.call (.attr (.name n!"self") n!"write_int_16_array") (.arg (.attr (.name n!"self") n!"drop_sites") .argNil)) (.arg (.call (.attr (.name n!"self") n!"write_int_8") (.arg (.attr (.name n!"self") n!"task_swap_group") .argNil)) (.arg (.call (.attr (.name n!"self") n!"write_int_16") (.arg (.attr (.name n!"self") n!"attack_sound") .argNil)) (.arg (.call (.attr (.name n!"self") n!"write_int_16") (.arg (.attr (.name n!"self") n!"move_sound") .argNil)) (.arg (.call (.attr (.name n!"self") n!"write_int_32") (.arg (.attr (.name n!"self") n!"wwise_attack_sound_id") .argNil)) (.arg (.call (.attr (.name n!"self") n!"write_int_32") (.arg (.attr (.name n!"self") n!"wwise_move_sound_id") .argNil)) (.arg (.call (.attr (.name n!"self") n!"write_int_8") (.arg (.attr (.name n!"self") n!"run_pattern") .argNil)) (.arg (.call (.attr (.name n!"self") n!"write_int_16") (.arg (.call (.name n!"len") (.arg (.attr (.name n!"self") n!"tasks") .argNil)) .argNil)) (.arg (.call (.attr (.name n!"self") n!"write_class_array") (.arg (.attr (.name n!"self") n!"tasks") (.arg (.name n!"version") .argNil))) .argNil)))))))))))))) .argNil)))

/-- `class Bird` — `/repo/src/genieutils/unit.py:132-191`. -/
def Bird.src : Cls where
  name := n!"Bird"
  module := n!"unit"
  base := n!"GenieClass"
  dataclass := true
  fields := [(n!"default_task_id", .argNil), (n!"search_radius", .argNil), (n!"work_rate", .argNil), (n!"drop_sites", .argNil), (n!"task_swap_group", .argNil), (n!"attack_sound", .argNil), (n!"move_sound", .argNil), (n!"wwise_attack_sound_id", .argNil), (n!"wwise_move_sound_id", .argNil), (n!"run_pattern", .argNil), (n!"tasks", .argNil)]
  vars := []
  funs := [Bird.src_from_bytes, Bird.src_to_bytes]

/-- `AttackOrArmor.from_bytes` — `/repo/src/genieutils/unit.py:204-209`. -/
def AttackOrArmor.src_from_bytes : Fun where
  name := n!"from_bytes"
  kind := .classMethod
  params := [(n!"cls", .argNil), (n!"content", .argNil)]
  body :=
    (.unpack [n!"class_", n!"amount"] (.call (.attr (.name n!"struct") n!"unpack") (.arg (.name n!"ATTACK_OR_ARMOR_FORMAT") (.arg (.call (.attr (.name n!"content") n!"consume_range") (.arg (.name n!"ATTACK_OR_ARMOR_FORMAT_LENGTH") .argNil)) .argNil)))
    (.ret (.call (.name n!"cls") (.kw n!"class_" (.name n!"class_") (.kw n!"amount" (.name n!"amount") .argNil)))))

/-- `AttackOrArmor.to_bytes` — `/repo/src/genieutils/unit.py:211-212`. -/
def AttackOrArmor.src_to_bytes : Fun where
  name := n!"to_bytes"
  kind := .method
  params := [(n!"self", .argNil), (n!"version", .argNil)]
  body :=
    (.ret (.call (.attr (.name n!"struct") n!"pack") (.arg (.name n!"ATTACK_OR_ARMOR_FORMAT") (.arg (.attr (.name n!"self") n!"class_") (.arg (.attr (.name n!"self") n!"amount") .argNil)))))

/-- `class AttackOrArmor` — `/repo/src/genieutils/unit.py:199-212`. -/
def AttackOrArmor.src : Cls where
  name := n!"AttackOrArmor"
  module := n!"unit"
  base := n!"GenieClass"
  dataclass := true
  fields := [(n!"class_", .argNil), (n!"amount", .argNil)]
  vars := []
  funs := [AttackOrArmor.src_from_bytes, AttackOrArmor.src_to_bytes]

/-- `Type50.from_bytes` — `/repo/src/genieutils/unit.py:246-310`. -/
def Type50.src_from_bytes : Fun where
  name := n!"from_bytes"
  kind := .classMethod
  params := [(n!"cls", .argNil), (n!"content", .argNil)]
  body :=
    (.assign n!"base_armor" (.call (.attr (.name n!"content") n!"read_int_16") .argNil)
    (.assign n!"attack_count" (.call (.attr (.name n!"content") n!"read_int_16") .argNil)
    (.assign n!"attacks" (.call (.attr (.name n!"content") n!"read_class_array") (.arg (.name n!"AttackOrArmor") (.arg (.name n!"attack_count") .argNil)))
    (.assign n!"armour_count" (.call (.attr (.name n!"content") n!"read_int_16") .argNil)
    (.assign n!"armours" (.call (.attr (.name n!"content") n!"read_class_array") (.arg (.name n!"AttackOrArmor") (.arg (.name n!"armour_count") .argNil)))
    (.assign n!"defense_terrain_bonus" (.call (.attr (.name n!"content") n!"read_int_16") .argNil)
    (.assign n!"bonus_damage_resistance" (.call (.attr (.name n!"content") n!"read_float") .argNil)
    (.assign n!"max_range" (.call (.attr (.name n!"content") n!"read_float") .argNil)
    (.assign n!"blast_width" (.call (.attr (.name n!"content") n!"read_float") .argNil)
    (.assign n!"reload_time" (.call (.attr (.name n!"content") n!"read_float") .argNil)
    (.assign n!"projectile_unit_id" (.call (.attr (.name n!"content") n!"read_int_16") .argNil)
    (.assign n!"accuracy_percent" (.call (.attr (.name n!"content") n!"read_int_16") .argNil)
    (.assign n!"break_off_combat" (.call (.attr (.name n!"content") n!"read_int_8") .argNil)
    (.assign n!"frame_delay" (.call (.attr (.name n!"content") n!"read_int_16") .argNil)
    (.assign n!"graphic_displacement" (.call (.attr (.name n!"content") n!"read_float_array_3") .argNil)
    (.assign n!"blast_attack_level" (.call (.attr (.name n!"content") n!"read_int_8") .argNil)
    (.assign n!"min_range" (.call (.attr (.name n!"content") n!"read_float") .argNil)
    (.assign n!"accuracy_dispersion" (.call (.attr (.name n!"content") n!"read_float") .argNil)
    (.assign n!"attack_graphic" (.call (.attr (.name n!"content") n!"read_int_16") .argNil)
    (.assign n!"displayed_melee_armour" (.call (.attr (.name n!"content") n!"read_int_16") .argNil)
    (.assign n!"displayed_attack" (.call (.attr (.name n!"content") n!"read_int_16") .argNil)
    (.assign n!"displayed_range" (.call (.attr (.name n!"content") n!"read_float") .argNil)
    (.assign n!"displayed_reload_time" (.call (.attr (.name n!"content") n!"read_float") .argNil)
    (.assign n!"blast_damage" (.call (.attr (.name n!"content") n!"read_float") .argNil)
    (.assign n!"damage_reflection" (.float 0)
    (.assign n!"friendly_fire_damage" (.float 4607182418800017408)
    (.assign n!"interrupt_frame" (.neg (.int 1))
    (.assign n!"garrison_firepower" (.float 0)
    (.assign n!"attack_graphic_2" (.neg (.int 1))
    (.ite (.compare (.attr (.name n!"content") n!"version") (.cmp .ge (.attr (.name n!"Version") n!"VER_84") .cmpNil))
        (.assign n!"damage_reflection" (.call (.attr (.name n!"content") n!"read_float") .argNil)
        (.assign n!"friendly_fire_damage" (.call (.attr (.name n!"content") n!"read_float") .argNil)
        (.assign n!"interrupt_frame" (.call (.attr (.name n!"content") n!"read_int_16") .argNil)
        (.assign n!"garrison_firepower" (.call (.attr (.name n!"content") n!"read_float") .argNil)
        (.assign n!"attack_graphic_2" (.call (.attr (.name n!"content") n!"read_int_16") .argNil)
        .done)))))
        .done
    (.ret (.call (.name n!"cls") (.kw n!"base_armor" (.name n!"base_armor") (.kw n!"attacks" (.name n!"attacks") (.kw n!"armours" (.name n!"armours") (.kw n!"defense_terrain_bonus" (.name n!"defense_terrain_bonus") (.kw n!"bonus_damage_resistance" (.name n!"bonus_damage_resistance") (.kw n!"max_range" (.name n!"max_range") (.kw n!"blast_width" (.name n!"blast_width") (.kw n!"reload_time" (.name n!"reload_time") (.kw n!"projectile_unit_id" (.name n!"projectile_unit_id") (.kw n!"accuracy_percent" (.name n!"accuracy_percent") (.kw n!"break_off_combat" (.name n!"break_off_combat") (.kw n!"frame_delay" (.name n!"frame_delay") (.kw n!"graphic_displacement" (.name n!"graphic_displacement") (.kw n!"blast_attack_level" (.name n!"blast_attack_level") (.kw n!"min_range" (.name n!"min_range") (.kw n!"accuracy_dispersion" (.name n!"accuracy_dispersion") (.kw n!"attack_graphic" (.name n!"attack_graphic") (.kw n!"displayed_melee_armour" (.name n!"displayed_melee_armour") (.kw n!"displayed_attack" (.name n!"displayed_attack") (.kw n!"displayed_range" (.name n!"displayed_range") (.kw n!"displayed_reload_time" (.name n!"displayed_reload_time") (.kw n!"blast_damage" (.name n!"blast_damage") (.kw n!"damage_reflection" (.name n!"damage_reflection") (.kw n!"friendly_fire_damage" (.name n!"friendly_fire_damage") (.kw n!"interrupt_frame" (.name n!"interrupt_frame") (.kw n!"garrison_firepower" (.name n!"garrison_firepower") (.kw n!"attack_graphic_2" (.name n!"attack_graphic_2") .argNil)))))))))))))))))))))))))))))))))))))))))))))))))))))))))))

/-- `Type50.to_bytes` — `/repo/src/genieutils/unit.py:312-347`. -/
def Type50.src_to_bytes : Fun where
  name := n!"to_bytes"
  kind := .method
  params := [(n!"self", .argNil), (n!"version", .argNil)]
  body :=
    (.assign n!"value" (.call (.attr (.bytes []) n!"join") (.arg (.list (.arg (.call (.attr (.name n!"self") n!"write_int_16") (.arg (.attr (.name n!"self") n!"base_armor") .argNil)) (.arg (.call (.attr (.name n!"self") n!"write_int_16") (.arg (.call (.name n!"len") (.arg (.attr (.name n!"self") n!"attacks") .argNil)) .argNil)) (.arg (.call (.attr (.name n!"self") n!"write_class_array") (.arg (.attr (.name n!"self") n!"attacks") (.arg (.name n!"version") .argNil))) (.arg (.call (.attr (.name n!"self") n!"write_int_16") (.arg (.call (.name n!"len") (.arg (.attr (.name n!"self") n!"armours") .argNil)) .argNil)) (.arg (.call (.attr (.name n!"self") n!"write_class_array") (.arg (.attr (.name n!"self") n!"armours") (.arg (.name n!"version") .argNil))) (.arg (.call (.attr (.name n!"self") n!"write_int_16") (.arg (.attr (.name n!"self") n!"defense_terrain_bonus") .argNil)) (.arg (.call (.attr (.name n!"self") n!"write_float") (.arg (.attr (.name n!"self") n!"bonus_damage_resistance") .argNil)) (.arg (.call (.attr (.name n!"self") n!"write_float") (.arg (.attr (.name n!"self") n!"max_range") .argNil)) (.arg (.call (.attr (.name n!"self") n!"write_float") (.arg (.attr (.name n!"self") n!"blast_width") .argNil)) (.arg (.call (.attr (.name n!"self") n!"write_float") (.arg (.attr (.name n!"self") n!"reload_time") .argNil)) (.arg (.call (.attr (.name n!"self") n!"write_int_16") (.arg (.attr (.name n!"self") n!"projectile_unit_id") .argNil)) (.arg (.call (.attr (.name n!"self") n!"write_int_16") (.arg (.attr (.name n!"self") n!"accuracy_percent") .argNil)) (.arg (.call (.attr (.name n!"self") n!"write_int_8") (.arg (.attr (.name n!"self") n!"break_off_combat") .argNil)) (.arg (.call (.attr (.name n!"self") n!"write_int_16") (.arg (.attr (.name n!"self") n!"frame_delay") .argNil)) (.arg (.call (.attr (.name n!"self") n!"write_float_array") (.arg (.attr (.name n!"self") n!"graphic_displacement") .argNil)) (.arg (.call (.attr (.name n!"self") n!"write_int_8") (.arg (.attr (.name n!"self") n!"blast_attack_level") .argNil)) (.arg (.call (.attr (.name n!"self") n!"write_float") (.arg (.attr (.name n!"self") n!"min_range") .argNil)) (.arg (.call (.attr (.name n!"self") n!"write_float") (.arg (.attr (.name n!"self") n!"accuracy_dispersion") .argNil)) (.arg (.call (.attr (.name n!"self") n!"write_int_16") (.arg (.attr (.name n!"self") n!"attack_graphic") .argNil)) (.arg (.call (.attr (.name n!"self") n!"write_int_16") (.arg (.attr (.name n!"self") n!"displayed_melee_armour") .argNil)) (.arg (.call (.attr (.name n!"self") n!"write_int_16") (.arg (.attr (.name n!"self") n!"displayed_attack") .argNil)) (.arg (.call (.attr (.name n!"self") n!"write_float") (.arg (.attr (.name n!"self") n!"displayed_range") .argNil)) (.arg (.call (.attr (.name n!"self") n!"write_float") (.arg (.attr (.name n!"self") n!"displayed_reload_time") .argNil)) (.arg (.call (.attr (.name n!"self") n!"write_float") (.arg (.attr (.name n!"self") n!"blast_damage") .argNil)) .argNil))))))))))))))))))))))))) .argNil))
    (.ite (.compare (.name n!"version") (.cmp .ge (.attr (.name n!"Version") n!"VER_84") .cmpNil))
        (.aug n!"value" .add (.call (.attr (.bytes []) n!"join") (.arg (.list (.arg (.call (.attr (.name n!"self") n!"write_float") (.arg (.attr (.name n!"self") n!"damage_reflection") .argNil)) (.arg (.call (.attr (.name n!"self") n!"write_float") (.arg (.attr (.name n!"self") n!"friendly_fire_damage") .argNil)) (.arg (.call (.attr (.name n!"self") n!"write_int_16") (.arg (.attr (.name n!"self") n!"interrupt_frame") .argNil)) (.arg (.call (.attr (.name n!"self") n!"write_float") (.arg (.attr (.name n!"self") n!"garrison_firepower") .argNil)) (.arg (.call (.attr (.name n!"self") n!"write_int_16") (.arg (.attr (.name n!"self") n!"attack_graphic_2") .argNil)) .argNil)))))) .argNil))
        .done)
        .done
    (.ret (.name n!"value"))))

/-- `class Type50` — `/repo/src/genieutils/unit.py:216-347`. -/
def Type50.src : Cls where
  name := n!"Type50"
  module := n!"unit"
  base := n!"GenieClass"
  dataclass := true
  fields := [(n!"base_armor", .argNil), (n!"attacks", .argNil), (n!"armours", .argNil), (n!"defense_terrain_bonus", .argNil), (n!"bonus_damage_resistance", .argNil), (n!"max_range", .argNil), (n!"blast_width", .argNil), (n!"reload_time", .argNil), (n!"projectile_unit_id", .argNil), (n!"accuracy_percent", .argNil), (n!"break_off_combat", .argNil), (n!"frame_delay", .argNil), (n!"graphic_displacement", .argNil), (n!"blast_attack_level", .argNil), (n!"min_range", .argNil), (n!"accuracy_dispersion", .argNil), (n!"attack_graphic", .argNil), (n!"displayed_melee_armour", .argNil), (n!"displayed_attack", .argNil), (n!"displayed_range", .argNil), (n!"displayed_reload_time", .argNil), (n!"blast_damage", .argNil), (n!"damage_reflection", .argNil), (n!"friendly_fire_damage", .argNil), (n!"interrupt_frame", .argNil), (n!"garrison_firepower", .argNil), (n!"attack_graphic_2", .argNil)]
  vars := []
  funs := [Type50.src_from_bytes, Type50.src_to_bytes]

/-- `Projectile.from_bytes` — `/repo/src/genieutils/unit.py:364-378`. -/
def Projectile.src_from_bytes : Fun where
  name := n!"from_bytes"
  kind := .classMethod
  params := [(n!"cls", .argNil), (n!"content", .argNil)]
  body :=
    (.unpack [n!"projectile_type", n!"smart_mode", n!"hit_mode", n!"vanish_mode", n!"area_effect_specials", n!"projectile_arc"] (.call (.attr (.name n!"struct") n!"unpack") (.arg (.name n!"PROJECTILE_FORMAT") (.arg (.call (.attr (.name n!"content") n!"consume_range") (.arg (.name n!"PROJECTILE_FORMAT_LENGTH") .argNil)) .argNil)))
    (.ret (.call (.name n!"cls") (.kw n!"projectile_type" (.name n!"projectile_type") (.kw n!"smart_mode" (.name n!"smart_mode") (.kw n!"hit_mode" (.name n!"hit_mode") (.kw n!"vanish_mode" (.name n!"vanish_mode") (.kw n!"area_effect_specials" (.name n!"area_effect_specials") (.kw n!"projectile_arc" (.name n!"projectile_arc") .argNil)))))))))

/-- `Projectile.to_bytes` — `/repo/src/genieutils/unit.py:380-388`. -/
def Projectile.src_to_bytes : Fun where
  name := n!"to_bytes"
  kind := .method
  params := [(n!"self", .argNil), (n!"version", .argNil)]
  body :=
    (.ret (.call (.attr (.name n!"struct") n!"pack") (.arg (.name n!"PROJECTILE_FORMAT") (.arg (.attr (.name n!"self") n!"projectile_type") (.arg (.attr (.name n!"self") n!"smart_mode") (.arg (.attr (.name n!"self") n!"hit_mode") (.arg (.attr (.name n!"self") n!"vanish_mode") (.arg (.attr (.name n!"self") n!"area_effect_specials") (.arg (.attr (.name n!"self") n!"projectile_arc") .argNil)))))))))

/-- `class Projectile` — `/repo/src/genieutils/unit.py:355-388`. -/
def Projectile.src : Cls where
  name := n!"Projectile"
  module := n!"unit"
  base := n!"GenieClass"
  dataclass := true
  fields := [(n!"projectile_type", .argNil), (n!"smart_mode", .argNil), (n!"hit_mode", .argNil), (n!"vanish_mode", .argNil), (n!"area_effect_specials", .argNil), (n!"projectile_arc", .argNil)]
  vars := []
  funs := [Projectile.src_from_bytes, Projectile.src_to_bytes]

/-- `ResourceCost.from_bytes` — `/repo/src/genieutils/unit.py:402-408`. -/
def ResourceCost.src_from_bytes : Fun where
  name := n!"from_bytes"
  kind := .classMethod
  params := [(n!"cls", .argNil), (n!"content", .argNil)]
  body :=
    (.unpack [n!"type_", n!"amount", n!"flag"] (.call (.attr (.name n!"struct") n!"unpack") (.arg (.name n!"RESOURCE_COST_FORMAT") (.arg (.call (.attr (.name n!"content") n!"consume_range") (.arg (.name n!"RESOURCE_COST_FORMAT_LENGTH") .argNil)) .argNil)))
    (.ret (.call (.name n!"cls") (.kw n!"type" (.name n!"type_") (.kw n!"amount" (.name n!"amount") (.kw n!"flag" (.name n!"flag") .argNil))))))

/-- `ResourceCost.to_bytes` — `/repo/src/genieutils/unit.py:410-411`. -/
def ResourceCost.src_to_bytes : Fun where
  name := n!"to_bytes"
  kind := .method
  params := [(n!"self", .argNil), (n!"version", .argNil)]
  body :=
    (.ret (.call (.attr (.name n!"struct") n!"pack") (.arg (.name n!"RESOURCE_COST_FORMAT") (.arg (.attr (.name n!"self") n!"type") (.arg (.attr (.name n!"self") n!"amount") (.arg (.attr (.name n!"self") n!"flag") .argNil))))))

/-- `class ResourceCost` — `/repo/src/genieutils/unit.py:396-411`. -/
def ResourceCost.src : Cls where
  name := n!"ResourceCost"
  module := n!"unit"
  base := n!"GenieClass"
  dataclass := true
  fields := [(n!"type", .argNil), (n!"amount", .argNil), (n!"flag", .argNil)]
  vars := []
  funs := [ResourceCost.src_from_bytes, ResourceCost.src_to_bytes]

/-- `TrainLocation.from_bytes` — `/repo/src/genieutils/unit.py:429-432`. -/
def TrainLocation.src_from_bytes : Fun where
  name := n!"from_bytes"
  kind := .classMethod
  params := [(n!"cls", .argNil), (n!"content", .argNil)]
  body :=
    (.ite (.compare (.attr (.name n!"content") n!"version") (.cmp .ge (.attr (.name n!"Version") n!"VER_88") .cmpNil))
        (.ret (.call (.attr (.name n!"cls") n!"from_bytes_88") (.arg (.name n!"content") .argNil)))
        .done
    (.ret (.call (.attr (.name n!"cls") n!"from_bytes_84") (.arg (.name n!"content") .argNil))))

/-- `TrainLocation.from_bytes_84` — `/repo/src/genieutils/unit.py:435-444`. -/
def TrainLocation.src_from_bytes_84 : Fun where
  name := n!"from_bytes_84"
  kind := .classMethod
  params := [(n!"cls", .argNil), (n!"content", .argNil)]
  body :=
    (.unpack [n!"train_time", n!"unit_id", n!"button_id"] (.call (.attr (.name n!"struct") n!"unpack") (.arg (.name n!"TRAIN_LOCATION_FORMAT") (.arg (.call (.attr (.name n!"content") n!"consume_range") (.arg (.name n!"TRAIN_LOCATOIN_FORMAT_LENGTH") .argNil)) .argNil)))
    (.ret (.call (.name n!"cls") (.kw n!"train_time" (.name n!"train_time") (.kw n!"unit_id" (.name n!"unit_id") (.kw n!"button_id" (.name n!"button_id") (.kw n!"hot_key_id" (.int 16000) .argNil)))))))

/-- `TrainLocation.from_bytes_88` — `/repo/src/genieutils/unit.py:447-457`. -/
def TrainLocation.src_from_bytes_88 : Fun where
  name := n!"from_bytes_88"
  kind := .classMethod
  params := [(n!"cls", .argNil), (n!"content", .argNil)]
  body :=
    (.unpack [n!"train_time", n!"unit_id", n!"button_id", n!"hot_key_id"] (.call (.attr (.name n!"struct") n!"unpack") (.arg (.name n!"TRAIN_LOCATION_FORMAT_88") (.arg (.call (.attr (.name n!"content") n!"consume_range") (.arg (.name n!"TRAIN_LOCATOIN_FORMAT_LENGTH_88") .argNil)) .argNil)))
    (.ret (.call (.name n!"cls") (.kw n!"train_time" (.name n!"train_time") (.kw n!"unit_id" (.name n!"unit_id") (.kw n!"button_id" (.name n!"button_id") (.kw n!"hot_key_id" (.name n!"hot_key_id") .argNil)))))))

/-- `TrainLocation.to_bytes` — `/repo/src/genieutils/unit.py:459-462`. -/
def TrainLocation.src_to_bytes : Fun where
  name := n!"to_bytes"
  kind := .method
  params := [(n!"self", .argNil), (n!"version", .argNil)]
  body :=
    (.ite (.compare (.name n!"version") (.cmp .ge (.attr (.name n!"Version") n!"VER_88") .cmpNil))
        (.ret (.call (.attr (.name n!"struct") n!"pack") (.arg (.name n!"TRAIN_LOCATION_FORMAT_88") (.arg (.attr (.name n!"self") n!"train_time") (.arg (.attr (.name n!"self") n!"unit_id") (.arg (.attr (.name n!"self") n!"button_id") (.arg (.attr (.name n!"self") n!"hot_key_id") .argNil)))))))
        .done
    (.ret (.call (.attr (.name n!"struct") n!"pack") (.arg (.name n!"TRAIN_LOCATION_FORMAT") (.arg (.attr (.name n!"self") n!"train_time") (.arg (.attr (.name n!"self") n!"unit_id") (.arg (.attr (.name n!"self") n!"button_id") .argNil)))))))

/-- `class TrainLocation` — `/repo/src/genieutils/unit.py:422-462`. -/
def TrainLocation.src : Cls where
  name := n!"TrainLocation"
  module := n!"unit"
  base := n!"GenieClass"
  dataclass := true
  fields := [(n!"train_time", .argNil), (n!"unit_id", .argNil), (n!"button_id", .argNil), (n!"hot_key_id", .argNil)]
  vars := []
  funs := [TrainLocation.src_from_bytes, TrainLocation.src_from_bytes_84, TrainLocation.src_from_bytes_88, TrainLocation.src_to_bytes]

/-- `Creatable.from_bytes` — `/repo/src/genieutils/unit.py:510-515`. -/
def Creatable.src_from_bytes : Fun where
  name := n!"from_bytes"
  kind := .classMethod
  params := [(n!"cls", .argNil), (n!"content", .argNil)]
  body :=
    (.ite (.compare (.attr (.name n!"content") n!"version") (.cmp .ge (.attr (.name n!"Version") n!"VER_88") .cmpNil))
        (.ret (.call (.attr (.name n!"cls") n!"from_bytes_88") (.arg (.name n!"content") .argNil)))
        (.ite (.compare (.attr (.name n!"content") n!"version") (.cmp .ge (.attr (.name n!"Version") n!"VER_84") .cmpNil))
            (.ret (.call (.attr (.name n!"cls") n!"from_bytes_84") (.arg (.name n!"content") .argNil)))
            .done
        .done)
    (.ret (.call (.attr (.name n!"cls") n!"from_bytes_78") (.arg (.name n!"content") .argNil))))

/-- `Creatable.from_bytes_78` — `/repo/src/genieutils/unit.py:518-596`. -/
def Creatable.src_from_bytes_78 : Fun where
  name := n!"from_bytes_78"
  kind := .classMethod
  params := [(n!"cls", .argNil), (n!"content", .argNil)]
  body :=
    (.assign n!"resource_costs" (.call (.attr (.name n!"content") n!"read_class_array_3") (.arg (.name n!"ResourceCost") .argNil))
    (.unpack [n!"train_time", n!"train_location_id", n!"button_id", n!"rear_attack_modifier", n!"flank_attack_modifier", n!"creatable_type", n!"hero_mode", n!"garrison_graphic", n!"spawning_graphic", n!"upgrade_graphic", n!"hero_glow_graphic", n!"max_charge", n!"recharge_rate", n!"charge_event", n!"charge_type", n!"min_conversion_time_mod", n!"max_conversion_time_mod", n!"conversion_chance_mod", n!"total_projectiles", n!"max_total_projectiles", n!"projectile_spawning_area_1", n!"projectile_spawning_area_2", n!"projectile_spawning_area_3", n!"secondary_projectile_unit", n!"special_graphic", n!"special_ability", n!"displayed_pierce_armour"] (.call (.attr (.name n!"struct") n!"unpack") (.arg (.name n!"CREATABLE_FORMAT") (.arg (.call (.attr (.name n!"content") n!"consume_range") (.arg (.name n!"CREATABLE_FORMAT_LENGTH") .argNil)) .argNil)))
    (.assign n!"idle_attack_graphic" (.neg (.int 1))
    (.assign n!"charge_target" (.int 0)
    (.assign n!"charge_projectile_unit" (.neg (.int 1))
    (.assign n!"attack_priority" (.int 0)
    (.assign n!"invulnerability_level" (.int 0)
    (.assign n!"button_icon_id" (.neg (.int 1))
    (.assign n!"button_short_tooltip_id" (.neg (.int 1))
    (.assign n!"button_extended_tooltip_id" (.neg (.int 1))
    (.assign n!"button_hotkey_action" (.neg (.int 1))
    (.assign n!"train_locations" (.list (.arg (.call (.name n!"TrainLocation") (.kw n!"train_time" (.name n!"train_time") (.kw n!"unit_id" (.name n!"train_location_id") (.kw n!"button_id" (.name n!"button_id") (.kw n!"hot_key_id" (.int 16000) .argNil))))) .argNil))
    (.ret (.call (.name n!"cls") (.kw n!"resource_costs" (.name n!"resource_costs") (.kw n!"train_locations" (.name n!"train_locations") (.kw n!"rear_attack_modifier" (.name n!"rear_attack_modifier") (.kw n!"flank_attack_modifier" (.name n!"flank_attack_modifier") (.kw n!"creatable_type" (.name n!"creatable_type") (.kw n!"hero_mode" (.name n!"hero_mode") (.kw n!"garrison_graphic" (.name n!"garrison_graphic") (.kw n!"spawning_graphic" (.name n!"spawning_graphic") (.kw n!"upgrade_graphic" (.name n!"upgrade_graphic") (.kw n!"hero_glow_graphic" (.name n!"hero_glow_graphic") (.kw n!"idle_attack_graphic" (.name n!"idle_attack_graphic") (.kw n!"max_charge" (.name n!"max_charge") (.kw n!"recharge_rate" (.name n!"recharge_rate") (.kw n!"charge_event" (.name n!"charge_event") (.kw n!"charge_type" (.name n!"charge_type") (.kw n!"charge_target" (.name n!"charge_target") (.kw n!"charge_projectile_unit" (.name n!"charge_projectile_unit") (.kw n!"attack_priority" (.name n!"attack_priority") (.kw n!"invulnerability_level" (.name n!"invulnerability_level") (.kw n!"button_icon_id" (.name n!"button_icon_id") (.kw n!"button_short_tooltip_id" (.name n!"button_short_tooltip_id") (.kw n!"button_extended_tooltip_id" (.name n!"button_extended_tooltip_id") (.kw n!"button_hotkey_action" (.name n!"button_hotkey_action") (.kw n!"min_conversion_time_mod" (.name n!"min_conversion_time_mod") (.kw n!"max_conversion_time_mod" (.name n!"max_conversion_time_mod") (.kw n!"conversion_chance_mod" (.name n!"conversion_chance_mod") (.kw n!"total_projectiles" (.name n!"total_projectiles") (.kw n!"max_total_projectiles" (.name n!"max_total_projectiles") (.kw n!"projectile_spawning_area" (.tuple (.arg (.name n!"projectile_spawning_area_1") (.arg (.name n!"projectile_spawning_area_2") (.arg (.name n!"projectile_spawning_area_3") .argNil)))) (.kw n!"secondary_projectile_unit" (.name n!"secondary_projectile_unit") (.kw n!"special_graphic" (.name n!"special_graphic") (.kw n!"special_ability" (.name n!"special_ability") (.kw n!"displayed_pierce_armour" (.name n!"displayed_pierce_armour") .argNil)))))))))))))))))))))))))))))))))))))))))))))))

/-- `Creatable.from_bytes_84` — `/repo/src/genieutils/unit.py:599-678`. -/
def Creatable.src_from_bytes_84 : Fun where
  name := n!"from_bytes_84"
  kind := .classMethod
  params := [(n!"cls", .argNil), (n!"content", .argNil)]
  body :=
    (.assign n!"resource_costs" (.call (.attr (.name n!"content") n!"read_class_array_3") (.arg (.name n!"ResourceCost") .argNil))
    (.unpack [n!"train_time", n!"train_location_id", n!"button_id", n!"rear_attack_modifier", n!"flank_attack_modifier", n!"creatable_type", n!"hero_mode", n!"garrison_graphic", n!"spawning_graphic", n!"upgrade_graphic", n!"hero_glow_graphic", n!"idle_attack_graphic", n!"max_charge", n!"recharge_rate", n!"charge_event", n!"charge_type", n!"charge_target", n!"charge_projectile_unit", n!"attack_priority", n!"invulnerability_level", n!"button_icon_id", n!"button_short_tooltip_id", n!"button_extended_tooltip_id", n!"button_hotkey_action", n!"min_conversion_time_mod", n!"max_conversion_time_mod", n!"conversion_chance_mod", n!"total_projectiles", n!"max_total_projectiles", n!"projectile_spawning_area_1", n!"projectile_spawning_area_2", n!"projectile_spawning_area_3", n!"secondary_projectile_unit", n!"special_graphic", n!"special_ability", n!"displayed_pierce_armour"] (.call (.attr (.name n!"struct") n!"unpack") (.arg (.name n!"CREATABLE_FORMAT_84") (.arg (.call (.attr (.name n!"content") n!"consume_range") (.arg (.name n!"CREATABLE_FORMAT_LENGTH_84") .argNil)) .argNil)))
    (.assign n!"train_locations" (.list (.arg (.call (.name n!"TrainLocation") (.kw n!"train_time" (.name n!"train_time") (.kw n!"unit_id" (.name n!"train_location_id") (.kw n!"button_id" (.name n!"button_id") (.kw n!"hot_key_id" (.int 16000) .argNil))))) .argNil))
    (.ret (.call (.name n!"cls") (.kw n!"resource_costs" (.name n!"resource_costs") (.kw n!"train_locations" (.name n!"train_locations") (.kw n!"rear_attack_modifier" (.name n!"rear_attack_modifier") (.kw n!"flank_attack_modifier" (.name n!"flank_attack_modifier") (.kw n!"creatable_type" (.name n!"creatable_type") (.kw n!"hero_mode" (.name n!"hero_mode") (.kw n!"garrison_graphic" (.name n!"garrison_graphic") (.kw n!"spawning_graphic" (.name n!"spawning_graphic") (.kw n!"upgrade_graphic" (.name n!"upgrade_graphic") (.kw n!"hero_glow_graphic" (.name n!"hero_glow_graphic") (.kw n!"idle_attack_graphic" (.name n!"idle_attack_graphic") (.kw n!"max_charge" (.name n!"max_charge") (.kw n!"recharge_rate" (.name n!"recharge_rate") (.kw n!"charge_event" (.name n!"charge_event") (.kw n!"charge_type" (.name n!"charge_type") (.kw n!"charge_target" (.name n!"charge_target") (.kw n!"charge_projectile_unit" (.name n!"charge_projectile_unit") (.kw n!"attack_priority" (.name n!"attack_priority") (.kw n!"invulnerability_level" (.name n!"invulnerability_level") (.kw n!"button_icon_id" (.name n!"button_icon_id") (.kw n!"button_short_tooltip_id" (.name n!"button_short_tooltip_id") (.kw n!"button_extended_tooltip_id" (.name n!"button_extended_tooltip_id") (.kw n!"button_hotkey_action" (.name n!"button_hotkey_action") (.kw n!"min_conversion_time_mod" (.name n!"min_conversion_time_mod") (.kw n!"max_conversion_time_mod" (.name n!"max_conversion_time_mod") (.kw n!"conversion_chance_mod" (.name n!"conversion_chance_mod") (.kw n!"total_projectiles" (.name n!"total_projectiles") (.kw n!"max_total_projectiles" (.name n!"max_total_projectiles") (.kw n!"projectile_spawning_area" (.tuple (.arg (.name n!"projectile_spawning_area_1") (.arg (.name n!"projectile_spawning_area_2") (.arg (.name n!"projectile_spawning_area_3") .argNil)))) (.kw n!"secondary_projectile_unit" (.name n!"secondary_projectile_unit") (.kw n!"special_graphic" (.name n!"special_graphic") (.kw n!"special_ability" (.name n!"special_ability") (.kw n!"displayed_pierce_armour" (.name n!"displayed_pierce_armour") .argNil))))))))))))))))))))))))))))))))))))))

/-- `Creatable.from_bytes_88` — `/repo/src/genieutils/unit.py:681-756`. -/
def Creatable.src_from_bytes_88 : Fun where
  name := n!"from_bytes_88"
  kind := .classMethod
  params := [(n!"cls", .argNil), (n!"content", .argNil)]
  body :=
    (.assign n!"resource_costs" (.call (.attr (.name n!"content") n!"read_class_array_3") (.arg (.name n!"ResourceCost") .argNil))
    (.assign n!"train_location_count" (.call (.attr (.name n!"content") n!"read_int_16") .argNil)
    (.assign n!"train_locations" (.call (.attr (.name n!"content") n!"read_class_array") (.arg (.name n!"TrainLocation") (.arg (.name n!"train_location_count") .argNil)))
    (.unpack [n!"rear_attack_modifier", n!"flank_attack_modifier", n!"creatable_type", n!"hero_mode", n!"garrison_graphic", n!"spawning_graphic", n!"upgrade_graphic", n!"hero_glow_graphic", n!"idle_attack_graphic", n!"max_charge", n!"recharge_rate", n!"charge_event", n!"charge_type", n!"charge_target", n!"charge_projectile_unit", n!"attack_priority", n!"invulnerability_level", n!"button_icon_id", n!"button_short_tooltip_id", n!"button_extended_tooltip_id", n!"button_hotkey_action", n!"min_conversion_time_mod", n!"max_conversion_time_mod", n!"conversion_chance_mod", n!"total_projectiles", n!"max_total_projectiles", n!"projectile_spawning_area_1", n!"projectile_spawning_area_2", n!"projectile_spawning_area_3", n!"secondary_projectile_unit", n!"special_graphic", n!"special_ability", n!"displayed_pierce_armour"] (.call (.attr (.name n!"struct") n!"unpack") (.arg (.name n!"CREATABLE_FORMAT_88") (.arg (.call (.attr (.name n!"content") n!"consume_range") (.arg (.name n!"CREATABLE_FORMAT_LENGTH_88") .argNil)) .argNil)))
    (.ret (.call (.name n!"cls") (.kw n!"resource_costs" (.name n!"resource_costs") (.kw n!"train_locations" (.name n!"train_locations") (.kw n!"rear_attack_modifier" (.name n!"rear_attack_modifier") (.kw n!"flank_attack_modifier" (.name n!"flank_attack_modifier") (.kw n!"creatable_type" (.name n!"creatable_type") (.kw n!"hero_mode" (.name n!"hero_mode") (.kw n!"garrison_graphic" (.name n!"garrison_graphic") (.kw n!"spawning_graphic" (.name n!"spawning_graphic") (.kw n!"upgrade_graphic" (.name n!"upgrade_graphic") (.kw n!"hero_glow_graphic" (.name n!"hero_glow_graphic") (.kw n!"idle_attack_graphic" (.name n!"idle_attack_graphic") (.kw n!"max_charge" (.name n!"max_charge") (.kw n!"recharge_rate" (.name n!"recharge_rate") (.kw n!"charge_event" (.name n!"charge_event") (.kw n!"charge_type" (.name n!"charge_type") (.kw n!"charge_target" (.name n!"charge_target") (.kw n!"charge_projectile_unit" (.name n!"charge_projectile_unit") (.kw n!"attack_priority" (.name n!"attack_priority") (.kw n!"invulnerability_level" (.name n!"invulnerability_level") (.kw n!"button_icon_id" (.name n!"button_icon_id") (.kw n!"button_short_tooltip_id" (.name n!"button_short_tooltip_id") (.kw n!"button_extended_tooltip_id" (.name n!"button_extended_tooltip_id") (.kw n!"button_hotkey_action" (.name n!"button_hotkey_action") (.kw n!"min_conversion_time_mod" (.name n!"min_conversion_time_mod") (.kw n!"max_conversion_time_mod" (.name n!"max_conversion_time_mod") (.kw n!"conversion_chance_mod" (.name n!"conversion_chance_mod") (.kw n!"total_projectiles" (.name n!"total_projectiles") (.kw n!"max_total_projectiles" (.name n!"max_total_projectiles") (.kw n!"projectile_spawning_area" (.tuple (.arg (.name n!"projectile_spawning_area_1") (.arg (.name n!"projectile_spawning_area_2") (.arg (.name n!"projectile_spawning_area_3") .argNil)))) (.kw n!"secondary_projectile_unit" (.name n!"secondary_projectile_unit") (.kw n!"special_graphic" (.name n!"special_graphic") (.kw n!"special_ability" (.name n!"special_ability") (.kw n!"displayed_pierce_armour" (.name n!"displayed_pierce_armour") .argNil)))))))))))))))))))))))))))))))))))))))

/-- `Creatable.to_bytes` — `/repo/src/genieutils/unit.py:758-763`. -/
def Creatable.src_to_bytes : Fun where
  name := n!"to_bytes"
  kind := .method
  params := [(n!"self", .argNil), (n!"version", .argNil)]
  body :=
    (.ite (.compare (.name n!"version") (.cmp .ge (.attr (.name n!"Version") n!"VER_88") .cmpNil))
        (.ret (.call (.attr (.name n!"self") n!"to_bytes_88") (.arg (.name n!"version") .argNil)))
        .done
    (.ite (.compare (.name n!"version") (.cmp .ge (.attr (.name n!"Version") n!"VER_84") .cmpNil))
        (.ret (.call (.attr (.name n!"self") n!"to_bytes_84") (.arg (.name n!"version") .argNil)))
        .done
    (.ret (.call (.attr (.name n!"self") n!"to_bytes_78") (.arg (.name n!"version") .argNil)))))

/-- `Creatable.to_bytes_78` — `/repo/src/genieutils/unit.py:765-793`. -/
def Creatable.src_to_bytes_78 : Fun where
  name := n!"to_bytes_78"
  kind := .method
  params := [(n!"self", .argNil), (n!"version", .argNil)]
  body :=
    (.ret (.bin .add (.call (.attr (.name n!"self") n!"write_class_array") (.arg (.attr (.name n!"self") n!"resource_costs") (.arg (.name n!"version") .argNil))) (.call (.attr (.name n!"struct") n!"pack") (.arg (.name n!"CREATABLE_FORMAT") (.arg (.attr (.index (.attr (.name n!"self") n!"train_locations") (.int 0)) n!"train_time") (.arg (.attr (.index (.attr (.name n!"self") n!"train_locations") (.int 0)) n!"unit_id") (.arg (.attr (.index (.attr (.name n!"self") n!"train_locations") (.int 0)) n!"button_id") (.arg (.attr (.name n!"self") n!"rear_attack_modifier") (.arg (.attr (.name n!"self") n!"flank_attack_modifier") (.arg (.attr (.name n!"self") n!"creatable_type") (.arg (.attr (.name n!"self") n!"hero_mode") (.arg (.attr (.name n!"self") n!"garrison_graphic") (.arg (.attr (.name n!"self") n!"spawning_graphic") (.arg (.attr (.name n!"self") n!"upgrade_graphic") (.arg (.attr (.name n!"self") n!"hero_glow_graphic") (.arg (.attr (.name n!"self") n!"max_charge") (.arg (.attr (.name n!"self") n!"recharge_rate") (.arg (.attr (.name n!"self") n!"charge_event") (.arg (.attr (.name n!"self") n!"charge_type") (.arg (.attr (.name n!"self") n!"min_conversion_time_mod") (.arg (.attr (.name n!"self") n!"max_conversion_time_mod") (.arg (.attr (.name n!"self") n!"conversion_chance_mod") (.arg (.attr (.name n!"self") n!"total_projectiles") (.arg (.attr (.name n!"self") n!"max_total_projectiles") (.star (.attr (.name n!"self") n!"projectile_spawning_area") (.arg (.attr (.name n!"self") n!"secondary_projectile_unit") (.arg (.attr (.name n!"self") n!"special_graphic") (.arg (.attr (.name n!"self") n!"special_ability") (.arg (.attr (.name n!"self") n!"displayed_pierce_armour") .argNil)))))))))))))))))))))))))))))

/-- `Creatable.to_bytes_84` — `/repo/src/genieutils/unit.py:795-832`. -/
def Creatable.src_to_bytes_84 : Fun where
  name := n!"to_bytes_84"
  kind := .method
  params := [(n!"self", .argNil), (n!"version", .argNil)]
  body :=
    (.ret (.bin .add (.call (.attr (.name n!"self") n!"write_class_array") (.arg (.attr (.name n!"self") n!"resource_costs") (.arg (.name n!"version") .argNil))) (.call (.attr (.name n!"struct") n!"pack") (.arg (.name n!"CREATABLE_FORMAT_84") (.arg (.attr (.index (.attr (.name n!"self") n!"train_locations") (.int 0)) n!"train_time") (.arg (.attr (.index (.attr (.name n!"self") n!"train_locations") (.int 0)) n!"unit_id") (.arg (.attr (.index (.attr (.name n!"self") n!"train_locations") (.int 0)) n!"button_id") (.arg (.attr (.name n!"self") n!"rear_attack_modifier") (.arg (.attr (.name n!"self") n!"flank_attack_modifier") (.arg (.attr (.name n!"self") n!"creatable_type") (.arg (.attr (.name n!"self") n!"hero_mode") (.arg (.attr (.name n!"self") n!"garrison_graphic") (.arg (.attr (.name n!"self") n!"spawning_graphic") (.arg (.attr (.name n!"self") n!"upgrade_graphic") (.arg (.attr (.name n!"self") n!"hero_glow_graphic") (.arg (.attr (.name n!"self") n!"idle_attack_graphic") (.arg (.attr (.name n!"self") n!"max_charge") (.arg (.attr (.name n!"self") n!"recharge_rate") (.arg (.attr (.name n!"self") n!"charge_event") (.arg (.attr (.name n!"self") n!"charge_type") (.arg (.attr (.name n!"self") n!"charge_target") (.arg (.attr (.name n!"self") n!"charge_projectile_unit") (.arg (.attr (.name n!"self") n!"attack_priority") (.arg (.attr (.name n!"self") n!"invulnerability_level") (.arg (.attr (.name n!"self") n!"button_icon_id") (.arg (.attr (.name n!"self") n!"button_short_tooltip_id") (.arg (.attr (.name n!"self") n!"button_extended_tooltip_id") (.arg (.attr (.name n!"self") n!"button_hotkey_action") (.arg (.attr (.name n!"self") n!"min_conversion_time_mod") (.arg (.attr (.name n!"self") n!"max_conversion_time_mod") (.arg (.attr (.name n!"self") n!"conversion_chance_mod") (.arg (.attr (.name n!"self") n!"total_projectiles") (.arg (.attr (.name n!"self") n!"max_total_projectiles") (.star (.attr (.name n!"self") n!"projectile_spawning_area") (.arg (.attr (.name n!"self") n!"secondary_projectile_unit") (.arg (.attr (.name n!"self") n!"special_graphic") (.arg (.attr (.name n!"self") n!"special_ability") (.arg (.attr (.name n!"self") n!"displayed_pierce_armour") .argNil))))))))))))))))))))))))))))))))))))))

/-- `Creatable.to_bytes_88` — `/repo/src/genieutils/unit.py:834-870`. -/
def Creatable.src_to_bytes_88 : Fun where
  name := n!"to_bytes_88"
  kind := .method
  params := [(n!"self", .argNil), (n!"version", .argNil)]
  body :=
    (.ret (.bin .add (.bin .add (.bin .add (.call (.attr (.name n!"self") n!"write_class_array") (.arg (.attr (.name n!"self") n!"resource_costs") (.arg (.name n!"version") .argNil))) (.call (.attr (.name n!"self") n!"write_int_16") (.arg (.call (.name n!"len") (.arg (.attr (.name n!"self") n!"train_locations") .argNil)) .argNil))) (.call (.attr (.name n!"self") n!"write_class_array") (.arg (.attr (.name n!"self") n!"train_locations") (.arg (.name n!"version") .argNil)))) (.call (.attr (.name n!"struct") n!"pack") (.arg (.name n!"CREATABLE_FORMAT_88") (.arg (.attr (.name n!"self") n!"rear_attack_modifier") (.arg (.attr (.name n!"self") n!"flank_attack_modifier") (.arg (.attr (.name n!"self") n!"creatable_type") (.arg (.attr (.name n!"self") n!"hero_mode") (.arg (.attr (.name n!"self") n!"garrison_graphic") (.arg (.attr (.name n!"self") n!"spawning_graphic") (.arg (.attr (.name n!"self") n!"upgrade_graphic") (.arg (.attr (.name n!"self") n!"hero_glow_graphic") (.arg (.attr (.name n!"self") n!"idle_attack_graphic") (.arg (.attr (.name n!"self") n!"max_charge") (.arg (.attr (.name n!"self") n!"recharge_rate") (.arg (.attr (.name n!"self") n!"charge_event") (.arg (.attr (.name n!"self") n!"charge_type") (.arg (.attr (.name n!"self") n!"charge_target") (.arg (.attr (.name n!"self") n!"charge_projectile_unit") (.arg (.attr (.name n!"self") n!"attack_priority") (.arg (.attr (.name n!"self") n!"invulnerability_level") (.arg (.attr (.name n!"self") n!"button_icon_id") (.arg (.attr (.name n!"self") n!"button_short_tooltip_id") (.arg (.attr (.name n!"self") n!"button_extended_tooltip_id") (.arg (.attr (.name n!"self") n!"button_hotkey_action") (.arg (.attr (.name n!"self") n!"min_conversion_time_mod") (.arg (.attr (.name n!"self") n!"max_conversion_time_mod") (.arg (.attr (.name n!"self") n!"conversion_chance_mod") (.arg (.attr (.name n!"self") n!"total_projectiles") (.arg (.attr (.name n!"self") n!"max_total_projectiles") (.star (.attr (.name n!"self") n!"projectile_spawning_area") (.arg (.attr (.name n!"self") n!"secondary_projectile_unit") (.arg (.attr (.name n!"self") n!"special_graphic") (.arg (.attr (.name n!"self") n!"special_ability") (.arg (.attr (.name n!"self") n!"displayed_pierce_armour") .argNil)))))))))))))))))))))))))))))))))))

/-- `class Creatable` — `/repo/src/genieutils/unit.py:474-870`. -/
def Creatable.src : Cls where
  name := n!"Creatable"
  module := n!"unit"
  base := n!"GenieClass"
  dataclass := true
  fields := [(n!"resource_costs", .argNil), (n!"train_locations", .argNil), (n!"rear_attack_modifier", .argNil), (n!"flank_attack_modifier", .argNil), (n!"creatable_type", .argNil), (n!"hero_mode", .argNil), (n!"garrison_graphic", .argNil), (n!"spawning_graphic", .argNil), (n!"upgrade_graphic", .argNil), (n!"hero_glow_graphic", .argNil), (n!"idle_attack_graphic", .argNil), (n!"max_charge", .argNil), (n!"recharge_rate", .argNil), (n!"charge_event", .argNil), (n!"charge_type", .argNil), (n!"charge_target", .argNil), (n!"charge_projectile_unit", .argNil), (n!"attack_priority", .argNil), (n!"invulnerability_level", .argNil), (n!"button_icon_id", .argNil), (n!"button_short_tooltip_id", .argNil), (n!"button_extended_tooltip_id", .argNil), (n!"button_hotkey_action", .argNil), (n!"min_conversion_time_mod", .argNil), (n!"max_conversion_time_mod", .argNil), (n!"conversion_chance_mod", .argNil), (n!"total_projectiles", .argNil), (n!"max_total_projectiles", .argNil), (n!"projectile_spawning_area", .argNil), (n!"secondary_projectile_unit", .argNil), (n!"special_graphic", .argNil), (n!"special_ability", .argNil), (n!"displayed_pierce_armour", .argNil)]
  vars := []
  funs := [Creatable.src_from_bytes, Creatable.src_from_bytes_78, Creatable.src_from_bytes_84, Creatable.src_from_bytes_88, Creatable.src_to_bytes, Creatable.src_to_bytes_78, Creatable.src_to_bytes_84, Creatable.src_to_bytes_88]

/-- `BuildingAnnex.from_bytes` — `/repo/src/genieutils/unit.py:884-891`. -/
def BuildingAnnex.src_from_bytes : Fun where
  name := n!"from_bytes"
  kind := .classMethod
  params := [(n!"cls", .argNil), (n!"content", .argNil)]
  body :=
    (.unpack [n!"unit_id", n!"misplacement_x", n!"misplacement_y"] (.call (.attr (.name n!"struct") n!"unpack") (.arg (.name n!"BUILDING_ANNEX_FORMAT") (.arg (.call (.attr (.name n!"content") n!"consume_range") (.arg (.name n!"BUILDING_ANNEX_FORMAT_LENGTH") .argNil)) .argNil)))
    (.ret (.call (.name n!"cls") (.kw n!"unit_id" (.name n!"unit_id") (.kw n!"misplacement_x" (.name n!"misplacement_x") (.kw n!"misplacement_y" (.name n!"misplacement_y") .argNil))))))

/-- `BuildingAnnex.to_bytes` — `/repo/src/genieutils/unit.py:893-898`. -/
def BuildingAnnex.src_to_bytes : Fun where
  name := n!"to_bytes"
  kind := .method
  params := [(n!"self", .argNil), (n!"version", .argNil)]
  body :=
    (.ret (.call (.attr (.name n!"struct") n!"pack") (.arg (.name n!"BUILDING_ANNEX_FORMAT") (.arg (.attr (.name n!"self") n!"unit_id") (.arg (.attr (.name n!"self") n!"misplacement_x") (.arg (.attr (.name n!"self") n!"misplacement_y") .argNil))))))

/-- `class BuildingAnnex` — `/repo/src/genieutils/unit.py:878-898`. -/
def BuildingAnnex.src : Cls where
  name := n!"BuildingAnnex"
  module := n!"unit"
  base := n!"GenieClass"
  dataclass := true
  fields := [(n!"unit_id", .argNil), (n!"misplacement_x", .argNil), (n!"misplacement_y", .argNil)]
  vars := []
  funs := [BuildingAnnex.src_from_bytes, BuildingAnnex.src_to_bytes]

/-- `Building.from_bytes` — `/repo/src/genieutils/unit.py:938-1008`. -/
def Building.src_from_bytes : Fun where
  name := n!"from_bytes"
  kind := .classMethod
  params := [(n!"cls", .argNil), (n!"content", .argNil)]
  body :=
    (.unpack [n!"construction_graphic_id", n!"snow_graphic_id", n!"destruction_graphic_id", n!"destruction_rubble_graphic_id", n!"researching_graphic", n!"research_completed_graphic", n!"adjacent_mode", n!"graphics_angle", n!"disappears_when_built", n!"stack_unit_id", n!"foundation_terrain_id", n!"old_overlap_id", n!"tech_id", n!"can_burn"] (.call (.attr (.name n!"struct") n!"unpack") (.arg (.name n!"BUILDING_ANNEX_FORMAT_1") (.arg (.call (.attr (.name n!"content") n!"consume_range") (.arg (.name n!"BUILDING_ANNEX_FORMAT_1_LENGTH") .argNil)) .argNil)))
    (.assign n!"annexes" (.call (.attr (.name n!"content") n!"read_class_array_4") (.arg (.name n!"BuildingAnnex") .argNil))
    (.unpack [n!"head_unit", n!"transform_unit", n!"transform_sound", n!"construction_sound", n!"wwise_transform_sound_id", n!"wwise_construction_sound_id", n!"garrison_type", n!"garrison_heal_rate", n!"garrison_repair_rate", n!"pile_unit", n!"looting_table_1", n!"looting_table_2", n!"looting_table_3", n!"looting_table_4", n!"looting_table_5", n!"looting_table_6"] (.call (.attr (.name n!"struct") n!"unpack") (.arg (.name n!"BUILDING_ANNEX_FORMAT_2") (.arg (.call (.attr (.name n!"content") n!"consume_range") (.arg (.name n!"BUILDING_ANNEX_FORMAT_2_LENGTH") .argNil)) .argNil)))
    (.ret (.call (.name n!"cls") (.kw n!"construction_graphic_id" (.name n!"construction_graphic_id") (.kw n!"snow_graphic_id" (.name n!"snow_graphic_id") (.kw n!"destruction_graphic_id" (.name n!"destruction_graphic_id") (.kw n!"destruction_rubble_graphic_id" (.name n!"destruction_rubble_graphic_id") (.kw n!"researching_graphic" (.name n!"researching_graphic") (.kw n!"research_completed_graphic" (.name n!"research_completed_graphic") (.kw n!"adjacent_mode" (.name n!"adjacent_mode") (.kw n!"graphics_angle" (.name n!"graphics_angle") (.kw n!"disappears_when_built" (.name n!"disappears_when_built") (.kw n!"stack_unit_id" (.name n!"stack_unit_id") (.kw n!"foundation_terrain_id" (.name n!"foundation_terrain_id") (.kw n!"old_overlap_id" (.name n!"old_overlap_id") (.kw n!"tech_id" (.name n!"tech_id") (.kw n!"can_burn" (.name n!"can_burn") (.kw n!"annexes" (.name n!"annexes") (.kw n!"head_unit" (.name n!"head_unit") (.kw n!"transform_unit" (.name n!"transform_unit") (.kw n!"transform_sound" (.name n!"transform_sound") (.kw n!"construction_sound" (.name n!"construction_sound") (.kw n!"wwise_transform_sound_id" (.name n!"wwise_transform_sound_id") (.kw n!"wwise_construction_sound_id" (.name n!"wwise_construction_sound_id") (.kw n!"garrison_type" (.name n!"garrison_type") (.kw n!"garrison_heal_rate" (.name n!"garrison_heal_rate") (.kw n!"garrison_repair_rate" (.name n!"garrison_repair_rate") (.kw n!"pile_unit" (.name n!"pile_unit") (.kw n!"looting_table" (.tuple (.arg (.name n!"looting_table_1") (.arg (.name n!"looting_table_2") (.arg (.name n!"looting_table_3") (.arg (.name n!"looting_table_4") (.arg (.name n!"looting_table_5") (.arg (.name n!"looting_table_6") .argNil))))))) .argNil)))))))))))))))))))))))))))))))

/-- `Building.to_bytes` — `/repo/src/genieutils/unit.py:1010-1040`. -/
def Building.src_to_bytes : Fun where
  name := n!"to_bytes"
  kind := .method
  params := [(n!"self", .argNil), (n!"version", .argNil)]
  body :=
    (.ret (.bin .add (.bin .add (.call (.attr (.name n!"struct") n!"pack") (.arg (.name n!"BUILDING_ANNEX_FORMAT_1") (.arg (.attr (.name n!"self") n!"construction_graphic_id") (.arg (.attr (.name n!"self") n!"snow_graphic_id") (.arg (.attr (.name n!"self") n!"destruction_graphic_id") (.arg (.attr (.name n!"self") n!"destruction_rubble_graphic_id") (.arg (.attr (.name n!"self") n!"researching_graphic") (.arg (.attr (.name n!"self") n!"research_completed_graphic") (.arg (.attr (.name n!"self") n!"adjacent_mode") (.arg (.attr (.name n!"self") n!"graphics_angle") (.arg (.attr (.name n!"self") n!"disappears_when_built") (.arg (.attr (.name n!"self") n!"stack_unit_id") (.arg (.attr (.name n!"self") n!"foundation_terrain_id") (.arg (.attr (.name n!"self") n!"old_overlap_id") (.arg (.attr (.name n!"self") n!"tech_id") (.arg (.attr (.name n!"self") n!"can_burn") .argNil)))))))))))))))) (.call (.attr (.name n!"self") n!"write_class_array") (.arg (.attr (.name n!"self") n!"annexes") (.arg (.name n!"version") .argNil)))) (.call (.attr (.name n!"struct") n!"pack") (.arg (.name n!"BUILDING_ANNEX_FORMAT_2") (.arg (.attr (.name n!"self") n!"head_unit") (.arg (.attr (.name n!"self") n!"transform_unit") (.arg (.attr (.name n!"self") n!"transform_sound") (.arg (.attr (.name n!"self") n!"construction_sound") (.arg (.attr (.name n!"self") n!"wwise_transform_sound_id") (.arg (.attr (.name n!"self") n!"wwise_construction_sound_id") (.arg (.attr (.name n!"self") n!"garrison_type") (.arg (.attr (.name n!"self") n!"garrison_heal_rate") (.arg (.attr (.name n!"self") n!"garrison_repair_rate") (.arg (.attr (.name n!"self") n!"pile_unit") (.star (.attr (.name n!"self") n!"looting_table") .argNil)))))))))))))))

/-- `class Building` — `/repo/src/genieutils/unit.py:909-1040`. -/
def Building.src : Cls where
  name := n!"Building"
  module := n!"unit"
  base := n!"GenieClass"
  dataclass := true
  fields := [(n!"construction_graphic_id", .argNil), (n!"snow_graphic_id", .argNil), (n!"destruction_graphic_id", .argNil), (n!"destruction_rubble_graphic_id", .argNil), (n!"researching_graphic", .argNil), (n!"research_completed_graphic", .argNil), (n!"adjacent_mode", .argNil), (n!"graphics_angle", .argNil), (n!"disappears_when_built", .argNil), (n!"stack_unit_id", .argNil), (n!"foundation_terrain_id", .argNil), (n!"old_overlap_id", .argNil), (n!"tech_id", .argNil), (n!"can_burn", .argNil), (n!"annexes", .argNil), (n!"head_unit", .argNil), (n!"transform_unit", .argNil), (n!"transform_sound", .argNil), (n!"construction_sound", .argNil), (n!"wwise_transform_sound_id", .argNil), (n!"wwise_construction_sound_id", .argNil), (n!"garrison_type", .argNil), (n!"garrison_heal_rate", .argNil), (n!"garrison_repair_rate", .argNil), (n!"pile_unit", .argNil), (n!"looting_table", .argNil)]
  vars := []
  funs := [Building.src_from_bytes, Building.src_to_bytes]

/-- `Unit.from_bytes` — `/repo/src/genieutils/unit.py:1136-1139`. -/
def Unit.src_from_bytes : Fun where
  name := n!"from_bytes"
  kind := .classMethod
  params := [(n!"cls", .argNil), (n!"content", .argNil)]
  body :=
    (.ite (.compare (.attr (.name n!"content") n!"version") (.cmp .ge (.attr (.name n!"Version") n!"VER_88") .cmpNil))
        (.ret (.call (.attr (.name n!"cls") n!"from_bytes_88") (.arg (.name n!"content") .argNil)))
        .done
    (.ret (.call (.attr (.name n!"cls") n!"from_bytes_84") (.arg (.name n!"content") .argNil))))

/-- `Unit.from_bytes_84` — `/repo/src/genieutils/unit.py:1142-1331`. -/
def Unit.src_from_bytes_84 : Fun where
  name := n!"from_bytes_84"
  kind := .classMethod
  params := [(n!"cls", .argNil), (n!"content", .argNil)]
  body :=
    (.unpack [n!"type_", n!"id_", n!"language_dll_name", n!"language_dll_creation", n!"class_", n!"standing_graphic_1", n!"standing_graphic_2", n!"dying_graphic", n!"undead_graphic", n!"undead_mode", n!"hit_points", n!"line_of_sight", n!"garrison_capacity", n!"collision_size_x", n!"collision_size_y", n!"collision_size_z", n!"train_sound", n!"damage_sound", n!"dead_unit_id", n!"blood_unit_id", n!"sort_number", n!"can_be_built_on", n!"icon_id", n!"hide_in_editor", n!"old_portrait_pict", n!"enabled", n!"disabled", n!"placement_side_terrain_1", n!"placement_side_terrain_2", n!"placement_terrain_1", n!"placement_terrain_2", n!"clearance_size_1", n!"clearance_size_2", n!"hill_mode", n!"fog_visibility", n!"terrain_restriction", n!"fly_mode", n!"resource_capacity", n!"resource_decay", n!"blast_defense_level", n!"combat_level", n!"interaction_mode", n!"minimap_mode", n!"interface_kind", n!"multiple_attribute_mode", n!"minimap_color", n!"language_dll_help", n!"language_dll_hotkey_text", n!"hot_key", n!"recyclable", n!"enable_auto_gather", n!"create_doppelganger_on_death", n!"resource_gather_group", n!"occlusion_mode", n!"obstruction_type", n!"obstruction_class", n!"trait", n!"civilization", n!"nothing", n!"selection_effect", n!"editor_selection_colour", n!"outline_size_x", n!"outline_size_y", n!"outline_size_z", n!"scenario_triggers_1", n!"scenario_triggers_2"] (.call (.attr (.name n!"struct") n!"unpack") (.arg (.name n!"FORMAT") (.arg (.call (.attr (.name n!"content") n!"consume_range") (.arg (.name n!"FORMAT_LENGTH") .argNil)) .argNil)))
    (.assign n!"resource_storages" (.call (.attr (.name n!"content") n!"read_class_array_3") (.arg (.name n!"ResourceStorage") .argNil))
    (.assign n!"damage_graphic_size" (.call (.attr (.name n!"content") n!"read_int_8") .argNil)
    (.assign n!"damage_graphics" (.call (.attr (.name n!"content") n!"read_class_array") (.arg (.name n!"DamageGraphic") (.arg (.name n!"damage_graphic_size") .argNil)))
    (.assign n!"selection_sound" (.call (.attr (.name n!"content") n!"read_int_16") .argNil)
    (.assign n!"dying_sound" (.call (.attr (.name n!"content") n!"read_int_16") .argNil)
    (.assign n!"wwise_train_sound_id" (.call (.attr (.name n!"content") n!"read_int_32") .argNil)
    (.assign n!"wwise_damage_sound_id" (.call (.attr (.name n!"content") n!"read_int_32") .argNil)
    (.assign n!"wwise_selection_sound_id" (.call (.attr (.name n!"content") n!"read_int_32") .argNil)
    (.assign n!"wwise_dying_sound_id" (.call (.attr (.name n!"content") n!"read_int_32") .argNil)
    (.assign n!"old_attack_reaction" (.call (.attr (.name n!"content") n!"read_int_8") .argNil)
    (.assign n!"convert_terrain" (.call (.attr (.name n!"content") n!"read_int_8") .argNil)
    (.assign n!"name" (.call (.attr (.name n!"content") n!"read_debug_string") .argNil)
    (.assign n!"copy_id" (.call (.attr (.name n!"content") n!"read_int_16") .argNil)
    (.assign n!"base_id" (.call (.attr (.name n!"content") n!"read_int_16") .argNil)
    (.assign n!"speed" .none
    (.assign n!"dead_fish" .none
    (.assign n!"bird" .none
    (.assign n!"type_50" .none
    (.assign n!"projectile" .none
    (.assign n!"creatable" .none
    (.assign n!"building" .none
    (.ite (.compare (.name n!"type_") (.cmp .ne (.attr (.name n!"UnitType") n!"AoeTrees") .cmpNil))
        (.ite (.compare (.name n!"type_") (.cmp .ge (.attr (.name n!"UnitType") n!"Flag") .cmpNil))
            (.assign n!"speed" (.call (.attr (.name n!"content") n!"read_float") .argNil)
            (.ite (.compare (.name n!"type_") (.cmp .ge (.attr (.name n!"UnitType") n!"DeadFish") .cmpNil))
                (.assign n!"dead_fish" (.call (.attr (.name n!"content") n!"read_class") (.arg (.name n!"DeadFish") .argNil))
                .done)
                .done
            (.ite (.compare (.name n!"type_") (.cmp .ge (.attr (.name n!"UnitType") n!"Bird") .cmpNil))
                (.assign n!"bird" (.call (.attr (.name n!"content") n!"read_class") (.arg (.name n!"Bird") .argNil))
                .done)
                .done
            (.ite (.compare (.name n!"type_") (.cmp .ge (.attr (.name n!"UnitType") n!"Combatant") .cmpNil))
                (.assign n!"type_50" (.call (.attr (.name n!"content") n!"read_class") (.arg (.name n!"Type50") .argNil))
                .done)
                .done
            (.ite (.compare (.name n!"type_") (.cmp .eq (.attr (.name n!"UnitType") n!"Projectile") .cmpNil))
                (.assign n!"projectile" (.call (.attr (.name n!"content") n!"read_class") (.arg (.name n!"Projectile") .argNil))
                .done)
                .done
            (.ite (.compare (.name n!"type_") (.cmp .ge (.attr (.name n!"UnitType") n!"Creatable") .cmpNil))
                (.assign n!"creatable" (.call (.attr (.name n!"content") n!"read_class") (.arg (.name n!"Creatable") .argNil))
                .done)
                .done
            (.ite (.compare (.name n!"type_") (.cmp .eq (.attr (.name n!"UnitType") n!"Building") .cmpNil))
                (.assign n!"building" (.call (.attr (.name n!"content") n!"read_class") (.arg (.name n!"Building") .argNil))
                .done)
                .done
            .done)))))))
            .done
        .done)
        .done
    (.ite (.name n!"creatable")
        (.ite (.not (.attr (.name n!"creatable") n!"train_locations"))
            (.setAttr (.name n!"creatable") n!"train_locations" (.list (.arg (.call (.name n!"TrainLocation") (.kw n!"train_time" (.int 0) (.kw n!"unit_id" (.neg (.int 1)) (.kw n!"button_id" (.int 0) (.kw n!"hot_key_id" (.int 16000) .argNil))))) .argNil))
            .done)
            .done
        (.setAttr (.index (.attr (.name n!"creatable") n!"train_locations") (.int 0)) n!"hot_key_id" (.name n!"hot_key")
        .done))
        .done
    (.ret (.call (.name n!"cls") (.kw n!"type" (.name n!"type_") (.kw n!"id" (.name n!"id_") (.kw n!"language_dll_name" (.name n!"language_dll_name") (.kw n!"language_dll_creation" (.name n!"language_dll_creation") (.kw n!"class_" (.name n!"class_") (.kw n!"standing_graphic" (.tuple (.arg (.name n!"standing_graphic_1") (.arg (.name n!"standing_graphic_2") .argNil))) (.kw n!"dying_graphic" (.name n!"dying_graphic") (.kw n!"undead_graphic" (.name n!"undead_graphic") (.kw n!"undead_mode" (.name n!"undead_mode") (.kw n!"hit_points" (.name n!"hit_points") (.kw n!"line_of_sight" (.name n!"line_of_sight") (.kw n!"garrison_capacity" (.name n!"garrison_capacity") (.kw n!"collision_size_x" (.name n!"collision_size_x") (.kw n!"collision_size_y" (.name n!"collision_size_y") (.kw n!"collision_size_z" (.name n!"collision_size_z") (.kw n!"train_sound" (.name n!"train_sound") (.kw n!"damage_sound" (.name n!"damage_sound") (.kw n!"dead_unit_id" (.name n!"dead_unit_id") (.kw n!"blood_unit_id" (.name n!"blood_unit_id") (.kw n!"sort_number" (.name n!"sort_number") (.kw n!"can_be_built_on" (.name n!"can_be_built_on") (.kw n!"icon_id" (.name n!"icon_id") (.kw n!"hide_in_editor" (.name n!"hide_in_editor") (.kw n!"old_portrait_pict" (.name n!"old_portrait_pict") (.kw n!"enabled" (.name n!"enabled") (.kw n!"disabled" (.name n!"disabled") (.kw n!"placement_side_terrain" (.tuple (.arg (.name n!"placement_side_terrain_1") (.arg (.name n!"placement_side_terrain_2") .argNil))) (.kw n!"placement_terrain" (.tuple (.arg (.name n!"placement_terrain_1") (.arg (.name n!"placement_terrain_2") .argNil))) (.kw n!"clearance_size" (.tuple (.arg (.name n!"clearance_size_1") (.arg (.name n!"clearance_size_2") .argNil))) (.kw n!"hill_mode" (.name n!"hill_mode") (.kw n!"fog_visibility" (.name n!"fog_visibility") (.kw n!"terrain_restriction" (.name n!"terrain_restriction") (.kw n!"fly_mode" (.name n!"fly_mode") (.kw n!"resource_capacity" (.name n!"resource_capacity") (.kw n!"resource_decay" (.name n!"resource_decay") (.kw n!"blast_defense_level" (.name n!"blast_defense_level") (.kw n!"combat_level" (.name n!"combat_level") (.kw n!"interaction_mode" (.name n!"interaction_mode") (.kw n!"minimap_mode" (.name n!"minimap_mode") (.kw n!"interface_kind" (.name n!"interface_kind") (.kw n!"multiple_attribute_mode" (.name n!"multiple_attribute_mode") (.kw n!"minimap_color" (.name n!"minimap_color") (.kw n!"language_dll_help" (.name n!"language_dll_help") (.kw n!"language_dll_hotkey_text" (.name n!"language_dll_hotkey_text") (.kw n!"hot_key" (.name n!"hot_key") (.kw n!"recyclable" (.name n!"recyclable") (.kw n!"enable_auto_gather" (.name n!"enable_auto_gather") (.kw n!"create_doppelganger_on_death" (.name n!"create_doppelganger_on_death") (.kw n!"resource_gather_group" (.name n!"resource_gather_group") (.kw n!"occlusion_mode" (.name n!"occlusion_mode") (.kw n!"obstruction_type" (.name n!"obstruction_type") (.kw n!"obstruction_class" (.name n!"obstruction_class") (.kw n!"trait" (.name n!"trait") (.kw n!"civilization" (.name n!"civilization") (.kw n!"nothing" (.name n!"nothing") (.kw n!"selection_effect" (.name n!"selection_effect") (.kw n!"editor_selection_colour" (.name n!"editor_selection_colour") (.kw n!"outline_size_x" (.name n!"outline_size_x") (.kw n!"outline_size_y" (.name n!"outline_size_y") (.kw n!"outline_size_z" (.name n!"outline_size_z") (.kw n!"scenario_triggers_1" (.name n!"scenario_triggers_1") (.kw n!"scenario_triggers_2" (.name n!"scenario_triggers_2") (.kw n!"resource_storages" (.name n!"resource_storages") (.kw n!"damage_graphics" (.name n!"damage_graphics") (.kw n!"selection_sound" (.name n!"selection_sound") (.kw n!"dying_sound" (.name n!"dying_sound") (.kw n!"wwise_train_sound_id" (.name n!"wwise_train_sound_id") (.kw n!"wwise_damage_sound_id" (.name n!"wwise_damage_sound_id") (.kw n!"wwise_selection_sound_id" (.name n!"wwise_selection_sound_id") (.kw n!"wwise_dying_sound_id" (.name n!"wwise_dying_sound_id") (.kw n!"old_attack_reaction" (.name n!"old_attack_reaction") (.kw n!"convert_terrain" (.name n!"convert_terrain") (.kw n!"name" (.name n!"name") (.kw n!"copy_id" (.name n!"copy_id") (.kw n!"base_id" (.name n!"base_id") (.kw n!"speed" (.name n!"speed") (.kw n!"dead_fish" (.name n!"dead_fish") (.kw n!"bird" (.name n!"bird") (.kw n!"type_50" (.name n!"type_50") (.kw n!"projectile" (.name n!"projectile") (.kw n!"creatable" (.name n!"creatable") (.kw n!"building" (.name n!"building") .argNil))))))))))))))))))))))))))))))))))))))))))))))))))))))))))))))))))))))))))))))))))))))))))))))))))))))))))))

/-- `Unit.from_bytes_88` — `/repo/src/genieutils/unit.py:1334-1520`. -/
def Unit.src_from_bytes_88 : Fun where
  name := n!"from_bytes_88"
  kind := .classMethod
  params := [(n!"cls", .argNil), (n!"content", .argNil)]
  body :=
    (.unpack [n!"type_", n!"id_", n!"language_dll_name", n!"language_dll_creation", n!"class_", n!"standing_graphic_1", n!"standing_graphic_2", n!"dying_graphic", n!"undead_graphic", n!"undead_mode", n!"hit_points", n!"line_of_sight", n!"garrison_capacity", n!"collision_size_x", n!"collision_size_y", n!"collision_size_z", n!"train_sound", n!"damage_sound", n!"dead_unit_id", n!"blood_unit_id", n!"sort_number", n!"can_be_built_on", n!"icon_id", n!"hide_in_editor", n!"old_portrait_pict", n!"enabled", n!"disabled", n!"placement_side_terrain_1", n!"placement_side_terrain_2", n!"placement_terrain_1", n!"placement_terrain_2", n!"clearance_size_1", n!"clearance_size_2", n!"hill_mode", n!"fog_visibility", n!"terrain_restriction", n!"fly_mode", n!"resource_capacity", n!"resource_decay", n!"blast_defense_level", n!"combat_level", n!"interaction_mode", n!"minimap_mode", n!"interface_kind", n!"multiple_attribute_mode", n!"minimap_color", n!"language_dll_help", n!"language_dll_hotkey_text", n!"recyclable", n!"enable_auto_gather", n!"create_doppelganger_on_death", n!"resource_gather_group", n!"occlusion_mode", n!"obstruction_type", n!"obstruction_class", n!"trait", n!"civilization", n!"nothing", n!"selection_effect", n!"editor_selection_colour", n!"outline_size_x", n!"outline_size_y", n!"outline_size_z", n!"scenario_triggers_1", n!"scenario_triggers_2"] (.call (.attr (.name n!"struct") n!"unpack") (.arg (.name n!"FORMAT_88") (.arg (.call (.attr (.name n!"content") n!"consume_range") (.arg (.name n!"FORMAT_LENGTH_88") .argNil)) .argNil)))
    (.assign n!"hot_key" (.int 16000)
    (.assign n!"resource_storages" (.call (.attr (.name n!"content") n!"read_class_array_3") (.arg (.name n!"ResourceStorage") .argNil))
    (.assign n!"damage_graphic_size" (.call (.attr (.name n!"content") n!"read_int_8") .argNil)
    (.assign n!"damage_graphics" (.call (.attr (.name n!"content") n!"read_class_array") (.arg (.name n!"DamageGraphic") (.arg (.name n!"damage_graphic_size") .argNil)))
    (.assign n!"selection_sound" (.call (.attr (.name n!"content") n!"read_int_16") .argNil)
    (.assign n!"dying_sound" (.call (.attr (.name n!"content") n!"read_int_16") .argNil)
    (.assign n!"wwise_train_sound_id" (.call (.attr (.name n!"content") n!"read_int_32") .argNil)
    (.assign n!"wwise_damage_sound_id" (.call (.attr (.name n!"content") n!"read_int_32") .argNil)
    (.assign n!"wwise_selection_sound_id" (.call (.attr (.name n!"content") n!"read_int_32") .argNil)
    (.assign n!"wwise_dying_sound_id" (.call (.attr (.name n!"content") n!"read_int_32") .argNil)
    (.assign n!"old_attack_reaction" (.call (.attr (.name n!"content") n!"read_int_8") .argNil)
    (.assign n!"convert_terrain" (.call (.attr (.name n!"content") n!"read_int_8") .argNil)
    (.assign n!"name" (.call (.attr (.name n!"content") n!"read_debug_string") .argNil)
    (.assign n!"copy_id" (.call (.attr (.name n!"content") n!"read_int_16") .argNil)
    (.assign n!"base_id" (.call (.attr (.name n!"content") n!"read_int_16") .argNil)
    (.assign n!"speed" .none
    (.assign n!"dead_fish" .none
    (.assign n!"bird" .none
    (.assign n!"type_50" .none
    (.assign n!"projectile" .none
    (.assign n!"creatable" .none
    (.assign n!"building" .none
    (.ite (.compare (.name n!"type_") (.cmp .ne (.attr (.name n!"UnitType") n!"AoeTrees") .cmpNil))
        (.ite (.compare (.name n!"type_") (.cmp .ge (.attr (.name n!"UnitType") n!"Flag") .cmpNil))
            (.assign n!"speed" (.call (.attr (.name n!"content") n!"read_float") .argNil)
            (.ite (.compare (.name n!"type_") (.cmp .ge (.attr (.name n!"UnitType") n!"DeadFish") .cmpNil))
                (.assign n!"dead_fish" (.call (.attr (.name n!"content") n!"read_class") (.arg (.name n!"DeadFish") .argNil))
                .done)
                .done
            (.ite (.compare (.name n!"type_") (.cmp .ge (.attr (.name n!"UnitType") n!"Bird") .cmpNil))
                (.assign n!"bird" (.call (.attr (.name n!"content") n!"read_class") (.arg (.name n!"Bird") .argNil))
                .done)
                .done
            (.ite (.compare (.name n!"type_") (.cmp .ge (.attr (.name n!"UnitType") n!"Combatant") .cmpNil))
                (.assign n!"type_50" (.call (.attr (.name n!"content") n!"read_class") (.arg (.name n!"Type50") .argNil))
                .done)
                .done
            (.ite (.compare (.name n!"type_") (.cmp .eq (.attr (.name n!"UnitType") n!"Projectile") .cmpNil))
                (.assign n!"projectile" (.call (.attr (.name n!"content") n!"read_class") (.arg (.name n!"Projectile") .argNil))
                .done)
                .done
            (.ite (.compare (.name n!"type_") (.cmp .ge (.attr (.name n!"UnitType") n!"Creatable") .cmpNil))
                (.assign n!"creatable" (.call (.attr (.name n!"content") n!"read_class") (.arg (.name n!"Creatable") .argNil))
                .done)
                .done
            (.ite (.compare (.name n!"type_") (.cmp .eq (.attr (.name n!"UnitType") n!"Building") .cmpNil))
                (.assign n!"building" (.call (.attr (.name n!"content") n!"read_class") (.arg (.name n!"Building") .argNil))
                .done)
                .done
            .done)))))))
            .done
        .done)
        .done
    (.ite (.and (.name n!"creatable") (.attr (.name n!"creatable") n!"train_locations"))
        (.assign n!"hot_key" (.attr (.index (.attr (.name n!"creatable") n!"train_locations") (.int 0)) n!"hot_key_id")
        .done)
        .done
    (.ret (.call (.name n!"cls") (.kw n!"type" (.name n!"type_") (.kw n!"id" (.name n!"id_") (.kw n!"language_dll_name" (.name n!"language_dll_name") (.kw n!"language_dll_creation" (.name n!"language_dll_creation") (.kw n!"class_" (.name n!"class_") (.kw n!"standing_graphic" (.tuple (.arg (.name n!"standing_graphic_1") (.arg (.name n!"standing_graphic_2") .argNil))) (.kw n!"dying_graphic" (.name n!"dying_graphic") (.kw n!"undead_graphic" (.name n!"undead_graphic") (.kw n!"undead_mode" (.name n!"undead_mode") (.kw n!"hit_points" (.name n!"hit_points") (.kw n!"line_of_sight" (.name n!"line_of_sight") (.kw n!"garrison_capacity" (.name n!"garrison_capacity") (.kw n!"collision_size_x" (.name n!"collision_size_x") (.kw n!"collision_size_y" (.name n!"collision_size_y") (.kw n!"collision_size_z" (.name n!"collision_size_z") (.kw n!"train_sound" (.name n!"train_sound") (.kw n!"damage_sound" (.name n!"damage_sound") (.kw n!"dead_unit_id" (.name n!"dead_unit_id") (.kw n!"blood_unit_id" (.name n!"blood_unit_id") (.kw n!"sort_number" (.name n!"sort_number") (.kw n!"can_be_built_on" (.name n!"can_be_built_on") (.kw n!"icon_id" (.name n!"icon_id") (.kw n!"hide_in_editor" (.name n!"hide_in_editor") (.kw n!"old_portrait_pict" (.name n!"old_portrait_pict") (.kw n!"enabled" (.name n!"enabled") (.kw n!"disabled" (.name n!"disabled") (.kw n!"placement_side_terrain" (.tuple (.arg (.name n!"placement_side_terrain_1") (.arg (.name n!"placement_side_terrain_2") .argNil))) (.kw n!"placement_terrain" (.tuple (.arg (.name n!"placement_terrain_1") (.arg (.name n!"placement_terrain_2") .argNil))) (.kw n!"clearance_size" (.tuple (.arg (.name n!"clearance_size_1") (.arg (.name n!"clearance_size_2") .argNil))) (.kw n!"hill_mode" (.name n!"hill_mode") (.kw n!"fog_visibility" (.name n!"fog_visibility") (.kw n!"terrain_restriction" (.name n!"terrain_restriction") (.kw n!"fly_mode" (.name n!"fly_mode") (.kw n!"resource_capacity" (.name n!"resource_capacity") (.kw n!"resource_decay" (.name n!"resource_decay") (.kw n!"blast_defense_level" (.name n!"blast_defense_level") (.kw n!"combat_level" (.name n!"combat_level") (.kw n!"interaction_mode" (.name n!"interaction_mode") (.kw n!"minimap_mode" (.name n!"minimap_mode") (.kw n!"interface_kind" (.name n!"interface_kind") (.kw n!"multiple_attribute_mode" (.name n!"multiple_attribute_mode") (.kw n!"minimap_color" (.name n!"minimap_color") (.kw n!"language_dll_help" (.name n!"language_dll_help") (.kw n!"language_dll_hotkey_text" (.name n!"language_dll_hotkey_text") (.kw n!"hot_key" (.name n!"hot_key") (.kw n!"recyclable" (.name n!"recyclable") (.kw n!"enable_auto_gather" (.name n!"enable_auto_gather") (.kw n!"create_doppelganger_on_death" (.name n!"create_doppelganger_on_death") (.kw n!"resource_gather_group" (.name n!"resource_gather_group") (.kw n!"occlusion_mode" (.name n!"occlusion_mode") (.kw n!"obstruction_type" (.name n!"obstruction_type") (.kw n!"obstruction_class" (.name n!"obstruction_class") (.kw n!"trait" (.name n!"trait") (.kw n!"civilization" (.name n!"civilization") (.kw n!"nothing" (.name n!"nothing") (.kw n!"selection_effect" (.name n!"selection_effect") (.kw n!"editor_selection_colour" (.name n!"editor_selection_colour") (.kw n!"outline_size_x" (.name n!"outline_size_x") (.kw n!"outline_size_y" (.name n!"outline_size_y") (.kw n!"outline_size_z" (.name n!"outline_size_z") (.kw n!"scenario_triggers_1" (.name n!"scenario_triggers_1") (.kw n!"scenario_triggers_2" (.name n!"scenario_triggers_2") (.kw n!"resource_storages" (.name n!"resource_storages") (.kw n!"damage_graphics" (.name n!"damage_graphics") (.kw n!"selection_sound" (.name n!"selection_sound") (.kw n!"dying_sound" (.name n!"dying_sound") (.kw n!"wwise_train_sound_id" (.name n!"wwise_train_sound_id") (.kw n!"wwise_damage_sound_id" (.name n!"wwise_damage_sound_id") (.kw n!"wwise_selection_sound_id" (.name n!"wwise_selection_sound_id") (.kw n!"wwise_dying_sound_id" (.name n!"wwise_dying_sound_id") (.kw n!"old_attack_reaction" (.name n!"old_attack_reaction") (.kw n!"convert_terrain" (.name n!"convert_terrain") (.kw n!"name" (.name n!"name") (.kw n!"copy_id" (.name n!"copy_id") (.kw n!"base_id" (.name n!"base_id") (.kw n!"speed" (.name n!"speed") (.kw n!"dead_fish" (.name n!"dead_fish") (.kw n!"bird" (.name n!"bird") (.kw n!"type_50" (.name n!"type_50") (.kw n!"projectile" (.name n!"projectile") (.kw n!"creatable" (.name n!"creatable") (.kw n!"building" (.name n!"building") .argNil)))))))))))))))))))))))))))))))))))))))))))))))))))))))))))))))))))))))))))))))))))))))))))))))))))))))))))))

/-- `Unit.to_bytes` — `/repo/src/genieutils/unit.py:1522-1525`. -/
def Unit.src_to_bytes : Fun where
  name := n!"to_bytes"
  kind := .method
  params := [(n!"self", .argNil), (n!"version", .argNil)]
  body :=
    (.ite (.compare (.name n!"version") (.cmp .ge (.attr (.name n!"Version") n!"VER_88") .cmpNil))
        (.ret (.call (.attr (.name n!"self") n!"to_bytes_88") (.arg (.name n!"version") .argNil)))
        .done
    (.ret (.call (.attr (.name n!"self") n!"to_bytes_84") (.arg (.name n!"version") .argNil))))

/-- `Unit.to_bytes_84` — `/repo/src/genieutils/unit.py:1527-1635`. -/
def Unit.src_to_bytes_84 : Fun where
  name := n!"to_bytes_84"
  kind := .method
  params := [(n!"self", .argNil), (n!"version", .argNil)]
  body :=
    (.assign n!"speed" (.bytes [])
    (.assign n!"dead_fish" (.bytes [])
    (.assign n!"bird" (.bytes [])
    (.assign n!"type_50" (.bytes [])
    (.assign n!"projectile" (.bytes [])
    (.assign n!"creatable" (.bytes [])
    (.assign n!"building" (.bytes [])
    (.ite (.compare (.attr (.name n!"self") n!"type") (.cmp .ne (.attr (.name n!"UnitType") n!"AoeTrees") .cmpNil))
        (.ite (.compare (.attr (.name n!"self") n!"type") (.cmp .ge (.attr (.name n!"UnitType") n!"Flag") .cmpNil))
            (.assign n!"speed" (.ifExp (.compare (.attr (.name n!"self") n!"speed") (.cmp .isNot .none .cmpNil)) (.call (.attr (.name n!"self") n!"write_float") (.arg (.attr (.name n!"self") n!"speed") .argNil)) (.bytes []))
            (.ite (.compare (.attr (.name n!"self") n!"type") (.cmp .ge (.attr (.name n!"UnitType") n!"DeadFish") .cmpNil))
                (.assign n!"dead_fish" (.ifExp (.compare (.attr (.name n!"self") n!"dead_fish") (.cmp .isNot .none .cmpNil)) (.call (.attr (.name n!"self") n!"write_class") (.arg (.attr (.name n!"self") n!"dead_fish") (.arg (.name n!"version") .argNil))) (.bytes []))
                .done)
                .done
            (.ite (.compare (.attr (.name n!"self") n!"type") (.cmp .ge (.attr (.name n!"UnitType") n!"Bird") .cmpNil))
                (.assign n!"bird" (.ifExp (.compare (.attr (.name n!"self") n!"bird") (.cmp .isNot .none .cmpNil)) (.call (.attr (.name n!"self") n!"write_class") (.arg (.attr (.name n!"self") n!"bird") (.arg (.name n!"version") .argNil))) (.bytes []))
                .done)
                .done
            (.ite (.compare (.attr (.name n!"self") n!"type") (.cmp .ge (.attr (.name n!"UnitType") n!"Combatant") .cmpNil))
                (.assign n!"type_50" (.ifExp (.compare (.attr (.name n!"self") n!"type_50") (.cmp .isNot .none .cmpNil)) (.call (.attr (.name n!"self") n!"write_class") (.arg (.attr (.name n!"self") n!"type_50") (.arg (.name n!"version") .argNil))) (.bytes []))
                .done)
                .done
            (.ite (.compare (.attr (.name n!"self") n!"type") (.cmp .eq (.attr (.name n!"UnitType") n!"Projectile") .cmpNil))
                (.assign n!"projectile" (.ifExp (.compare (.attr (.name n!"self") n!"projectile") (.cmp .isNot .none .cmpNil)) (.call (.attr (.name n!"self") n!"write_class") (.arg (.attr (.name n!"self") n!"projectile") (.arg (.name n!"version") .argNil))) (.bytes []))
                .done)
                .done
            (.ite (.compare (.attr (.name n!"self") n!"type") (.cmp .ge (.attr (.name n!"UnitType") n!"Creatable") .cmpNil))
                (.assign n!"creatable" (.ifExp (.compare (.attr (.name n!"self") n!"creatable") (.cmp .isNot .none .cmpNil)) (.call (.attr (.name n!"self") n!"write_class") (.arg (.attr (.name n!"self") n!"creatable") (.arg (.name n!"version") .argNil))) (.bytes []))
                .done)
                .done
            (.ite (.compare (.attr (.name n!"self") n!"type") (.cmp .eq (.attr (.name n!"UnitType") n!"Building") .cmpNil))
                (.assign n!"building" (.ifExp (.compare (.attr (.name n!"self") n!"building") (.cmp .isNot .none .cmpNil)) (.call (.attr (.name n!"self") n!"write_class") (.arg (.attr (.name n!"self") n!"building") (.arg (.name n!"version") .argNil))) (.bytes []))
                .done)
                .done
            .done)))))))
            .done
        .done)
        .done
    (.ret (.bin .add (.call (.attr (.name n!"struct") n!"pack") (.arg (.name n!"FORMAT") (.arg (.attr (.name n!"self") n!"type") (.arg (.attr (.name n!"self") n!"id") (.arg (.attr (.name n!"self") n!"language_dll_name") (.arg (.attr (.name n!"self") n!"language_dll_creation") (.arg (.attr (.name n!"self") n!"class_") (.star (.attr (.name n!"self") n!"standing_graphic") (.arg (.attr (.name n!"self") n!"dying_graphic") (.arg (.attr (.name n!"self") n!"undead_graphic") (.arg (.attr (.name n!"self") n!"undead_mode") (.arg (.attr (.name n!"self") n!"hit_points") (.arg (.attr (.name n!"self") n!"line_of_sight") (.arg (.attr (.name n!"self") n!"garrison_capacity") (.arg (.attr (.name n!"self") n!"collision_size_x") (.arg (.attr (.name n!"self") n!"collision_size_y") (.arg (.attr (.name n!"self") n!"collision_size_z") (.arg (.attr (.name n!"self") n!"train_sound") (.arg (.attr (.name n!"self") n!"damage_sound") (.arg (.attr (.name n!"self") n!"dead_unit_id") (.arg (.attr (.name n!"self") n!"blood_unit_id") (.arg (.attr (.name n!"self") n!"sort_number") (.arg (.attr (.name n!"self") n!"can_be_built_on") (.arg (.attr (.name n!"self") n!"icon_id") (.arg (.attr (.name n!"self") n!"hide_in_editor") (.arg (.attr (.name n!"self") n!"old_portrait_pict") (.arg (.attr (.name n!"self") n!"enabled") (.arg (.attr (.name n!"self") n!"disabled") (.star (.attr (.name n!"self") n!"placement_side_terrain") (.star (.attr (.name n!"self") n!"placement_terrain") (.star (.attr (.name n!"self") n!"clearance_size") (.arg (.attr (.name n!"self") n!"hill_mode") (.arg (.attr (.name n!"self") n!"fog_visibility") (.arg (.attr (.name n!"self") n!"terrain_restriction") (.arg (.attr (.name n!"self") n!"fly_mode") (.arg (.attr (.name n!"self") n!"resource_capacity") (.arg (.attr (.name n!"self") n!"resource_decay") (.arg (.attr (.name n!"self") n!"blast_defense_level") (.arg (.attr (.name n!"self") n!"combat_level") (.arg (.attr (.name n!"self") n!"interaction_mode") (.arg (.attr (.name n!"self") n!"minimap_mode") (.arg (.attr (.name n!"self") n!"interface_kind") (.arg (.attr (.name n!"self") n!"multiple_attribute_mode") (.arg (.attr (.name n!"self") n!"minimap_color") (.arg (.attr (.name n!"self") n!"language_dll_help") (.arg (.attr (.name n!"self") n!"language_dll_hotkey_text") (.arg (.attr (.name n!"self") n!"hot_key") (.arg (.attr (.name n!"self") n!"recyclable") (.arg (.attr (.name n!"self") n!"enable_auto_gather") (.arg (.attr (.name n!"self") n!"create_doppelganger_on_death") (.arg (.attr (.name n!"self") n!"resource_gather_group") (.arg (.attr (.name n!"self") n!"occlusion_mode") (.arg (.attr (.name n!"self") n!"obstruction_type") (.arg (.attr (.name n!"self") n!"obstruction_class") (.arg (.attr (.name n!"self") n!"trait") (.arg (.attr (.name n!"self") n!"civilization") (.arg (.attr (.name n!"self") n!"nothing") (.arg (.attr (.name n!"self") n!"selection_effect") (.arg (.attr (.name n!"self") n!"editor_selection_colour") (.arg (.attr (.name n!"self") n!"outline_size_x") (.arg (.attr (.name n!"self") n!"outline_size_y") (.arg (.attr (.name n!"self") n!"outline_size_z") (.arg (.attr (.name n!"self") n!"scenario_triggers_1") (.arg (.attr (.name n!"self") n!"scenario_triggers_2") .argNil)))))))))))))))))))))))))))))))))))))))))))))))))))))))))))))))) (.call (.attr (.bytes []) n!"join") (.arg (.list (.arg (.call (.attr (.name n!"self") n!"write_class_array") (.arg (.attr (.name n!"self") n!"resource_storages") (.arg (.name n!"version") .argNil))) (.arg (.call (.attr (.name n!"self") n!"write_int_8") (.arg (.call (.name n!"len") (.arg (.attr (.name n!"self") n!"damage_graphics") .argNil)) .argNil)) (.arg (.call (.attr (.name n!"self") n!"write_class_array") (.arg (.attr (.name n!"self") n!"damage_graphics") (.arg (.name n!"version") .argNil))) (.arg (.call (.attr (.name n!"self") n!"write_int_16") (.arg (.attr (.name n!"self") n!"selection_sound") .argNil)) (.arg (.call (.attr (.name n!"self") n!"write_int_16") (.arg (.attr (.name n!"self") n!"dying_sound") .argNil)) (.arg (.call (.attr (.name n!"self") n!"write_int_32") (.arg (.attr (.name n!"self") n!"wwise_train_sound_id") .argNil)) (.arg (.call (.attr (.name n!"self") n!"write_int_32") (.arg (.attr (.name n!"self") n!"wwise_damage_sound_id") .argNil)) (.arg (.call (.attr (.name n!"self") n!"write_int_32") (.arg (.attr (.name n!"self") n!"wwise_selection_sound_id") .argNil)) (.arg (.call (.attr (.name n!"self") n!"write_int_32") (.arg (.attr (.name n!"self") n!"wwise_dying_sound_id") .argNil)) (.arg (.call (.attr (.name n!"self") n!"write_int_8") (.arg (.attr (.name n!"self") n!"old_attack_reaction") .argNil)) (.arg (.call (.attr (.name n!"self") n!"write_int_8") (.arg (.attr (.name n!"self") n!"convert_terrain") .argNil)) (.arg (.call (.attr (.name n!"self") n!"write_debug_string") (.arg (.attr (.name n!"self") n!"name") .argNil)) (.arg (.call (.attr (.name n!"self") n!"write_int_16") (.arg (.attr (.name n!"self") n!"copy_id") .argNil)) (.arg (.call (.attr (.name n!"self") n!"write_int_16") (.arg (.attr (.name n!"self") n!"base_id") .argNil)) (.arg (.name n!"speed") (.arg (.name n!"dead_fish") (.arg (.name n!"bird") (.arg (.name n!"type_50") (.arg (.name n!"projectile") (.arg (.name n!"creatable") (.arg (.name n!"building") .argNil)))))))))))))))))))))) .argNil))))))))))))

/-- `Unit.to_bytes_88` — `/repo/src/genieutils/unit.py:1637-1744`. -/
def Unit.src_to_bytes_88 : Fun where
  name := n!"to_bytes_88"
  kind := .method
  params := [(n!"self", .argNil), (n!"version", .argNil)]
  body :=
    (.assign n!"speed" (.bytes [])
    (.assign n!"dead_fish" (.bytes [])
    (.assign n!"bird" (.bytes [])
    (.assign n!"type_50" (.bytes [])
    (.assign n!"projectile" (.bytes [])
    (.assign n!"creatable" (.bytes [])
    (.assign n!"building" (.bytes [])
    (.ite (.compare (.attr (.name n!"self") n!"type") (.cmp .ne (.attr (.name n!"UnitType") n!"AoeTrees") .cmpNil))
        (.ite (.compare (.attr (.name n!"self") n!"type") (.cmp .ge (.attr (.name n!"UnitType") n!"Flag") .cmpNil))
            (.assign n!"speed" (.ifExp (.compare (.attr (.name n!"self") n!"speed") (.cmp .isNot .none .cmpNil)) (.call (.attr (.name n!"self") n!"write_float") (.arg (.attr (.name n!"self") n!"speed") .argNil)) (.bytes []))
            (.ite (.compare (.attr (.name n!"self") n!"type") (.cmp .ge (.attr (.name n!"UnitType") n!"DeadFish") .cmpNil))
                (.assign n!"dead_fish" (.ifExp (.compare (.attr (.name n!"self") n!"dead_fish") (.cmp .isNot .none .cmpNil)) (.call (.attr (.name n!"self") n!"write_class") (.arg (.attr (.name n!"self") n!"dead_fish") (.arg (.name n!"version") .argNil))) (.bytes []))
                .done)
                .done
            (.ite (.compare (.attr (.name n!"self") n!"type") (.cmp .ge (.attr (.name n!"UnitType") n!"Bird") .cmpNil))
                (.assign n!"bird" (.ifExp (.compare (.attr (.name n!"self") n!"bird") (.cmp .isNot .none .cmpNil)) (.call (.attr (.name n!"self") n!"write_class") (.arg (.attr (.name n!"self") n!"bird") (.arg (.name n!"version") .argNil))) (.bytes []))
                .done)
                .done
            (.ite (.compare (.attr (.name n!"self") n!"type") (.cmp .ge (.attr (.name n!"UnitType") n!"Combatant") .cmpNil))
                (.assign n!"type_50" (.ifExp (.compare (.attr (.name n!"self") n!"type_50") (.cmp .isNot .none .cmpNil)) (.call (.attr (.name n!"self") n!"write_class") (.arg (.attr (.name n!"self") n!"type_50") (.arg (.name n!"version") .argNil))) (.bytes []))
                .done)
                .done
            (.ite (.compare (.attr (.name n!"self") n!"type") (.cmp .eq (.attr (.name n!"UnitType") n!"Projectile") .cmpNil))
                (.assign n!"projectile" (.ifExp (.compare (.attr (.name n!"self") n!"projectile") (.cmp .isNot .none .cmpNil)) (.call (.attr (.name n!"self") n!"write_class") (.arg (.attr (.name n!"self") n!"projectile") (.arg (.name n!"version") .argNil))) (.bytes []))
                .done)
                .done
            (.ite (.compare (.attr (.name n!"self") n!"type") (.cmp .ge (.attr (.name n!"UnitType") n!"Creatable") .cmpNil))
                (.assign n!"creatable" (.ifExp (.compare (.attr (.name n!"self") n!"creatable") (.cmp .isNot .none .cmpNil)) (.call (.attr (.name n!"self") n!"write_class") (.arg (.attr (.name n!"self") n!"creatable") (.arg (.name n!"version") .argNil))) (.bytes []))
                .done)
                .done
            (.ite (.compare (.attr (.name n!"self") n!"type") (.cmp .eq (.attr (.name n!"UnitType") n!"Building") .cmpNil))
                (.assign n!"building" (.ifExp (.compare (.attr (.name n!"self") n!"building") (.cmp .isNot .none .cmpNil)) (.call (.attr (.name n!"self") n!"write_class") (.arg (.attr (.name n!"self") n!"building") (.arg (.name n!"version") .argNil))) (.bytes []))
                .done)
                .done
            .done)))))))
            .done
        .done)
        .done
    (.ret (.bin .add (.call (.attr (.name n!"struct") n!"pack") (.arg (.name n!"FORMAT_88") (.arg (.attr (.name n!"self") n!"type") (.arg (.attr (.name n!"self") n!"id") (.arg (.attr (.name n!"self") n!"language_dll_name") (.arg (.attr (.name n!"self") n!"language_dll_creation") (.arg (.attr (.name n!"self") n!"class_") (.star (.attr (.name n!"self") n!"standing_graphic") (.arg (.attr (.name n!"self") n!"dying_graphic") (.arg (.attr (.name n!"self") n!"undead_graphic") (.arg (.attr (.name n!"self") n!"undead_mode") (.arg (.attr (.name n!"self") n!"hit_points") (.arg (.attr (.name n!"self") n!"line_of_sight") (.arg (.attr (.name n!"self") n!"garrison_capacity") (.arg (.attr (.name n!"self") n!"collision_size_x") (.arg (.attr (.name n!"self") n!"collision_size_y") (.arg (.attr (.name n!"self") n!"collision_size_z") (.arg (.attr (.name n!"self") n!"train_sound") (.arg (.attr (.name n!"self") n!"damage_sound") (.arg (.attr (.name n!"self") n!"dead_unit_id") (.arg (.attr (.name n!"self") n!"blood_unit_id") (.arg (.attr (.name n!"self") n!"sort_number") (.arg (.attr (.name n!"self") n!"can_be_built_on") (.arg (.attr (.name n!"self") n!"icon_id") (.arg (.attr (.name n!"self") n!"hide_in_editor") (.arg (.attr (.name n!"self") n!"old_portrait_pict") (.arg (.attr (.name n!"self") n!"enabled") (.arg (.attr (.name n!"self") n!"disabled") (.star (.attr (.name n!"self") n!"placement_side_terrain") (.star (.attr (.name n!"self") n!"placement_terrain") (.star (.attr (.name n!"self") n!"clearance_size") (.arg (.attr (.name n!"self") n!"hill_mode") (.arg (.attr (.name n!"self") n!"fog_visibility") (.arg (.attr (.name n!"self") n!"terrain_restriction") (.arg (.attr (.name n!"self") n!"fly_mode") (.arg (.attr (.name n!"self") n!"resource_capacity") (.arg (.attr (.name n!"self") n!"resource_decay") (.arg (.attr (.name n!"self") n!"blast_defense_level") (.arg (.attr (.name n!"self") n!"combat_level") (.arg (.attr (.name n!"self") n!"interaction_mode") (.arg (.attr (.name n!"self") n!"minimap_mode") (.arg (.attr (.name n!"self") n!"interface_kind") (.arg (.attr (.name n!"self") n!"multiple_attribute_mode") (.arg (.attr (.name n!"self") n!"minimap_color") (.arg (.attr (.name n!"self") n!"language_dll_help") (.arg (.attr (.name n!"self") n!"language_dll_hotkey_text") (.arg (.attr (.name n!"self") n!"recyclable") (.arg (.attr (.name n!"self") n!"enable_auto_gather") (.arg (.attr (.name n!"self") n!"create_doppelganger_on_death") (.arg (.attr (.name n!"self") n!"resource_gather_group") (.arg (.attr (.name n!"self") n!"occlusion_mode") (.arg (.attr (.name n!"self") n!"obstruction_type") (.arg (.attr (.name n!"self") n!"obstruction_class") (.arg (.attr (.name n!"self") n!"trait") (.arg (.attr (.name n!"self") n!"civilization") (.arg (.attr (.name n!"self") n!"nothing") (.arg (.attr (.name n!"self") n!"selection_effect") (.arg (.attr (.name n!"self") n!"editor_selection_colour") (.arg (.attr (.name n!"self") n!"outline_size_x") (.arg (.attr (.name n!"self") n!"outline_size_y") (.arg (.attr (.name n!"self") n!"outline_size_z") (.arg (.attr (.name n!"self") n!"scenario_triggers_1") (.arg (.attr (.name n!"self") n!"scenario_triggers_2") .argNil))))))))))))))))))))))))))))))))))))))))))))))))))))))))))))))) (.call (.attr (.bytes []) n!"join") (.arg (.list (.arg (.call (.attr (.name n!"self") n!"write_class_array") (.arg (.attr (.name n!"self") n!"resource_storages") (.arg (.name n!"version") .argNil))) (.arg (.call (.attr (.name n!"self") n!"write_int_8") (.arg (.call (.name n!"len") (.arg (.attr (.name n!"self") n!"damage_graphics") .argNil)) .argNil)) (.arg (.call (.attr (.name n!"self") n!"write_class_array") (.arg (.attr (.name n!"self") n!"damage_graphics") (.arg (.name n!"version") .argNil))) (.arg (.call (.attr (.name n!"self") n!"write_int_16") (.arg (.attr (.name n!"self") n!"selection_sound") .argNil)) (.arg (.call (.attr (.name n!"self") n!"write_int_16") (.arg (.attr (.name n!"self") n!"dying_sound") .argNil)) (.arg (.call (.attr (.name n!"self") n!"write_int_32") (.arg (.attr (.name n!"self") n!"wwise_train_sound_id") .argNil)) (.arg (.call (.attr (.name n!"self") n!"write_int_32") (.arg (.attr (.name n!"self") n!"wwise_damage_sound_id") .argNil)) (.arg (.call (.attr (.name n!"self") n!"write_int_32") (.arg (.attr (.name n!"self") n!"wwise_selection_sound_id") .argNil)) (.arg (.call (.attr (.name n!"self") n!"write_int_32") (.arg (.attr (.name n!"self") n!"wwise_dying_sound_id") .argNil)) (.arg (.call (.attr (.name n!"self") n!"write_int_8") (.arg (.attr (.name n!"self") n!"old_attack_reaction") .argNil)) (.arg (.call (.attr (.name n!"self") n!"write_int_8") (.arg (.attr (.name n!"self") n!"convert_terrain") .argNil)) (.arg (.call (.attr (.name n!"self") n!"write_debug_string") (.arg (.attr (.name n!"self") n!"name") .argNil)) (.arg (.call (.attr (.name n!"self") n!"write_int_16") (.arg (.attr (.name n!"self") n!"copy_id") .argNil)) (.arg (.call (.attr (.name n!"self") n!"write_int_16") (.arg (.attr (.name n!"self") n!"base_id") .argNil)) (.arg (.name n!"speed") (.arg (.name n!"dead_fish") (.arg (.name n!"bird") (.arg (.name n!"type_50") (.arg (.name n!"projectile") (.arg (.name n!"creatable") (.arg (.name n!"building") .argNil)))))))))))))))))))))) .argNil))))))))))))

/-- `class Unit` — `/repo/src/genieutils/unit.py:1051-1744`. -/
def Unit.src : Cls where
  name := n!"Unit"
  module := n!"unit"
  base := n!"GenieClass"
  dataclass := true
  fields := [(n!"type", .argNil), (n!"id", .argNil), (n!"language_dll_name", .argNil), (n!"language_dll_creation", .argNil), (n!"class_", .argNil), (n!"standing_graphic", .argNil), (n!"dying_graphic", .argNil), (n!"undead_graphic", .argNil), (n!"undead_mode", .argNil), (n!"hit_points", .argNil), (n!"line_of_sight", .argNil), (n!"garrison_capacity", .argNil), (n!"collision_size_x", .argNil), (n!"collision_size_y", .argNil), (n!"collision_size_z", .argNil), (n!"train_sound", .argNil), (n!"damage_sound", .argNil), (n!"dead_unit_id", .argNil), (n!"blood_unit_id", .argNil), (n!"sort_number", .argNil), (n!"can_be_built_on", .argNil), (n!"icon_id", .argNil), (n!"hide_in_editor", .argNil), (n!"old_portrait_pict", .argNil), (n!"enabled", .argNil), (n!"disabled", .argNil), (n!"placement_side_terrain", .argNil), (n!"placement_terrain", .argNil), (n!"clearance_size", .argNil), (n!"hill_mode", .argNil), (n!"fog_visibility", .argNil), (n!"terrain_restriction", .argNil), (n!"fly_mode", .argNil), (n!"resource_capacity", .argNil), (n!"resource_decay", .argNil), (n!"blast_defense_level", .argNil), (n!"combat_level", .argNil), (n!"interaction_mode", .argNil), (n!"minimap_mode", .argNil), (n!"interface_kind", .argNil), (n!"multiple_attribute_mode", .argNil), (n!"minimap_color", .argNil), (n!"language_dll_help", .argNil), (n!"language_dll_hotkey_text", .argNil), (n!"hot_key", .argNil), (n!"recyclable", .argNil), (n!"enable_auto_gather", .argNil), (n!"create_doppelganger_on_death", .argNil), (n!"resource_gather_group", .argNil), (n!"occlusion_mode", .argNil), (n!"obstruction_type", .argNil), (n!"obstruction_class", .argNil), (n!"trait", .argNil), (n!"civilization", .argNil), (n!"nothing", .argNil), (n!"selection_effect", .argNil), (n!"editor_selection_colour", .argNil), (n!"outline_size_x", .argNil), (n!"outline_size_y", .argNil), (n!"outline_size_z", .argNil), (n!"scenario_triggers_1", .argNil), (n!"scenario_triggers_2", .argNil), (n!"resource_storages", .argNil), (n!"damage_graphics", .argNil), (n!"selection_sound", .argNil), (n!"dying_sound", .argNil), (n!"wwise_train_sound_id", .argNil), (n!"wwise_damage_sound_id", .argNil), (n!"wwise_selection_sound_id", .argNil), (n!"wwise_dying_sound_id", .argNil), (n!"old_attack_reaction", .argNil), (n!"convert_terrain", .argNil), (n!"name", .argNil), (n!"copy_id", .argNil), (n!"base_id", .argNil), (n!"speed", .none), (n!"dead_fish", .none), (n!"bird", .none), (n!"type_50", .none), (n!"projectile", .none), (n!"creatable", .none), (n!"building", .none)]
  vars := []
  funs := [Unit.src_from_bytes, Unit.src_from_bytes_84, Unit.src_from_bytes_88, Unit.src_to_bytes, Unit.src_to_bytes_84, Unit.src_to_bytes_88]

/-- The names of the module `/repo/src/genieutils/unit.py`. -/
def module_unit : Module where
  name := n!"unit"
  globals := [
    (n!"struct", .lib),
    (n!"dataclass", .lib),
    (n!"ByteHandler", .from_ n!"common"),
    (n!"UnitType", .from_ n!"common"),
    (n!"GenieClass", .from_ n!"common"),
    (n!"Task", .from_ n!"task"),
    (n!"Version", .from_ n!"versions"),
    (n!"RESOURCE_STORAGE_FORMAT", .const (.str "<hfb")),
    (n!"RESOURCE_STORAGE_FORMAT_LENGTH", .const (.int 7)),
    (n!"ResourceStorage", .cls),
    (n!"DAMAGE_GRAPHIC_FORMAT", .const (.str "<hhb")),
    (n!"DAMAGE_GRAPHIC_FORMAT_LENGTH", .const (.int 5)),
    (n!"DamageGraphic", .cls),
    (n!"DEAD_FISH_FORMAT", .const (.str "<hhfbhbfbffffff")),
    (n!"DEAD_FISH_FORMAT_LENGTH", .const (.int 41)),
    (n!"DeadFish", .cls),
    (n!"Bird", .cls),
    (n!"ATTACK_OR_ARMOR_FORMAT", .const (.str "<hh")),
    (n!"ATTACK_OR_ARMOR_FORMAT_LENGTH", .const (.int 4)),
    (n!"AttackOrArmor", .cls),
    (n!"Type50", .cls),
    (n!"PROJECTILE_FORMAT", .const (.str "<bbbbbf")),
    (n!"PROJECTILE_FORMAT_LENGTH", .const (.int 9)),
    (n!"Projectile", .cls),
    (n!"RESOURCE_COST_FORMAT", .const (.str "<hhh")),
    (n!"RESOURCE_COST_FORMAT_LENGTH", .const (.int 6)),
    (n!"ResourceCost", .cls),
    (n!"TRAIN_LOCATION_FORMAT", .const (.str "<hhb")),
    (n!"TRAIN_LOCATOIN_FORMAT_LENGTH", .const (.call (.attr (.name n!"struct") n!"calcsize") (.arg (.name n!"TRAIN_LOCATION_FORMAT") .argNil))),
    (n!"TRAIN_LOCATION_FORMAT_88", .const (.str "<hhbl")),
    (n!"TRAIN_LOCATOIN_FORMAT_LENGTH_88", .const (.call (.attr (.name n!"struct") n!"calcsize") (.arg (.name n!"TRAIN_LOCATION_FORMAT_88") .argNil))),
    (n!"TrainLocation", .cls),
    (n!"CREATABLE_FORMAT", .const (.str "<hhbffbblhhhffhhffffbfffllbh")),
    (n!"CREATABLE_FORMAT_LENGTH", .const (.int 77)),
    (n!"CREATABLE_FORMAT_84", .const (.str "<hhbffbblhhhhffhhhlbfhllhffffbfffllbh")),
    (n!"CREATABLE_FORMAT_LENGTH_84", .const (.call (.attr (.name n!"struct") n!"calcsize") (.arg (.name n!"CREATABLE_FORMAT_84") .argNil))),
    (n!"CREATABLE_FORMAT_88", .const (.str "<ffbblhhhhffhhhlbfhllhffffbfffllbh")),
    (n!"CREATABLE_FORMAT_LENGTH_88", .const (.call (.attr (.name n!"struct") n!"calcsize") (.arg (.name n!"CREATABLE_FORMAT_88") .argNil))),
    (n!"Creatable", .cls),
    (n!"BUILDING_ANNEX_FORMAT", .const (.str "<hff")),
    (n!"BUILDING_ANNEX_FORMAT_LENGTH", .const (.int 10)),
    (n!"BuildingAnnex", .cls),
    (n!"BUILDING_ANNEX_FORMAT_1", .const (.str "<hhhhhhbhbhhhhb")),
    (n!"BUILDING_ANNEX_FORMAT_1_LENGTH", .const (.int 25)),
    (n!"BUILDING_ANNEX_FORMAT_2", .const (.str "<hhhhllbffhbbbbbb")),
    (n!"BUILDING_ANNEX_FORMAT_2_LENGTH", .const (.int 33)),
    (n!"Building", .cls),
    (n!"FORMAT", .const (.str "<bhllhhhhhbhfbfffhhhhbbhbhbbhhhhffbbhbhfbbbbbfblllbbbbbbbbbhbbfffll")),
    (n!"FORMAT_LENGTH", .const (.int 140)),
    (n!"FORMAT_88", .const (.str "<bhllhhhhhbhfbfffhhhhbbhbhbbhhhhffbbhbhfbbbbbfbllbbbbbbbbbhbbfffll")),
    (n!"FORMAT_LENGTH_88", .const (.call (.attr (.name n!"struct") n!"calcsize") (.arg (.name n!"FORMAT_88") .argNil))),
    (n!"Unit", .cls)]

end Genie.Src
