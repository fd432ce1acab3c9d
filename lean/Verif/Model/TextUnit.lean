import Verif.Py.Ast
/-!
# The text of `/repo/src/genieutils`

Line by line, as it is.  Written by `tools/gen_text.py`; `tools/check_text.py` compares it with the files.
-/

namespace Genie.Src

/-- The lines of `/repo/src/genieutils/task.py`. -/
def text_task : List Nat := [
  n!"import struct",
  n!"from dataclasses import dataclass",
  n!"",
  n!"from genieutils.common import ByteHandler, GenieClass",
  n!"from genieutils.versions import Version",
  n!"",
  n!"FORMAT = '<hhbhhhhhhhhfffbfbbhhbbbhhhhhhll'",
  n!"FORMAT_LENGTH = 67",
  n!"",
  n!"FORMAT_88 = '<hhbhhhhhhhhfffbfbbhhbbbhhhhhhllh'",
  n!"FORMAT_LENGTH_88 = struct.calcsize(FORMAT_88)",
  n!"",
  n!"",
  n!"@dataclass(slots=True)",
  n!"class Task(GenieClass):",
  n!"    task_type: int",
  n!"    id: int",
  n!"    is_default: int",
  n!"    action_type: int",
  n!"    class_id: int",
  n!"    unit_id: int",
  n!"    terrain_id: int",
  n!"    resource_in: int",
  n!"    resource_multiplier: int",
  n!"    resource_out: int",
  n!"    unused_resource: int",
  n!"    work_value_1: float",
  n!"    work_value_2: float",
  n!"    work_range: float",
  n!"    auto_search_targets: int",
  n!"    search_wait_time: float",
  n!"    enable_targeting: int",
  n!"    combat_level_flag: int",
  n!"    gather_type: int",
  n!"    work_flag_2: int",
  n!"    target_diplomacy: int",
  n!"    carry_check: int",
  n!"    pick_for_construction: int",
  n!"    moving_graphic_id: int",
  n!"    proceeding_graphic_id: int",
  n!"    working_graphic_id: int",
  n!"    carrying_graphic_id: int",
  n!"    resource_gathering_sound_id: int",
  n!"    resource_deposit_sound_id: int",
  n!"    wwise_resource_gathering_sound_id: int",
  n!"    wwise_resource_deposit_sound_id: int",
  n!"    enabled: int",
  n!"",
  n!"    @classmethod",
  n!"    def from_bytes(cls, content: ByteHandler) -> 'Task':",
  n!"        if content.version >= Version.VER_88:",
  n!"            return cls.from_bytes_88(content)",
  n!"        return cls.from_bytes_84(content)",
  n!"",
  n!"    @classmethod",
  n!"    def from_bytes_84(cls, content: ByteHandler) -> 'Task':",
  n!"        task_type, \\",
  n!"            id_, \\",
  n!"            is_default, \\",
  n!"            action_type, \\",
  n!"            class_id, \\",
  n!"            unit_id, \\",
  n!"            terrain_id, \\",
  n!"            resource_in, \\",
  n!"            resource_multiplier, \\",
  n!"            resource_out, \\",
  n!"            unused_resource, \\",
  n!"            work_value_1, \\",
  n!"            work_value_2, \\",
  n!"            work_range, \\",
  n!"            auto_search_targets, \\",
  n!"            search_wait_time, \\",
  n!"            enable_targeting, \\",
  n!"            combat_level_flag, \\",
  n!"            gather_type, \\",
  n!"            work_flag_2, \\",
  n!"            target_diplomacy, \\",
  n!"            carry_check, \\",
  n!"            pick_for_construction, \\",
  n!"            moving_graphic_id, \\",
  n!"            proceeding_graphic_id, \\",
  n!"            working_graphic_id, \\",
  n!"            carrying_graphic_id, \\",
  n!"            resource_gathering_sound_id, \\",
  n!"            resource_deposit_sound_id, \\",
  n!"            wwise_resource_gathering_sound_id, \\",
  n!"            wwise_resource_deposit_sound_id = struct.unpack(",
  n!"            FORMAT,",
  n!"            content.consume_range(FORMAT_LENGTH)",
  n!"        )",
  n!"",
  n!"        return cls(",
  n!"            task_type=task_type,",
  n!"            id=id_,",
  n!"            is_default=is_default,",
  n!"            action_type=action_type,",
  n!"            class_id=class_id,",
  n!"            unit_id=unit_id,",
  n!"            terrain_id=terrain_id,",
  n!"            resource_in=resource_in,",
  n!"            resource_multiplier=resource_multiplier,",
  n!"            resource_out=resource_out,",
  n!"            unused_resource=unused_resource,",
  n!"            work_value_1=work_value_1,",
  n!"            work_value_2=work_value_2,",
  n!"            work_range=work_range,",
  n!"            auto_search_targets=auto_search_targets,",
  n!"            search_wait_time=search_wait_time,",
  n!"            enable_targeting=enable_targeting,",
  n!"            combat_level_flag=combat_level_flag,",
  n!"            gather_type=gather_type,",
  n!"            work_flag_2=work_flag_2,",
  n!"            target_diplomacy=target_diplomacy,",
  n!"            carry_check=carry_check,",
  n!"            pick_for_construction=pick_for_construction,",
  n!"            moving_graphic_id=moving_graphic_id,",
  n!"            proceeding_graphic_id=proceeding_graphic_id,",
  n!"            working_graphic_id=working_graphic_id,",
  n!"            carrying_graphic_id=carrying_graphic_id,",
  n!"            resource_gathering_sound_id=resource_gathering_sound_id,",
  n!"            resource_deposit_sound_id=resource_deposit_sound_id,",
  n!"            wwise_resource_gathering_sound_id=wwise_resource_gathering_sound_id,",
  n!"            wwise_resource_deposit_sound_id=wwise_resource_deposit_sound_id,",
  n!"            enabled=-1,",
  n!"        )",
  n!"",
  n!"    @classmethod",
  n!"    def from_bytes_88(cls, content: ByteHandler) -> 'Task':",
  n!"        task_type, \\",
  n!"            id_, \\",
  n!"            is_default, \\",
  n!"            action_type, \\",
  n!"            class_id, \\",
  n!"            unit_id, \\",
  n!"            terrain_id, \\",
  n!"            resource_in, \\",
  n!"            resource_multiplier, \\",
  n!"            resource_out, \\",
  n!"            unused_resource, \\",
  n!"            work_value_1, \\",
  n!"            work_value_2, \\",
  n!"            work_range, \\",
  n!"            auto_search_targets, \\",
  n!"            search_wait_time, \\",
  n!"            enable_targeting, \\",
  n!"            combat_level_flag, \\",
  n!"            gather_type, \\",
  n!"            work_flag_2, \\",
  n!"            target_diplomacy, \\",
  n!"            carry_check, \\",
  n!"            pick_for_construction, \\",
  n!"            moving_graphic_id, \\",
  n!"            proceeding_graphic_id, \\",
  n!"            working_graphic_id, \\",
  n!"            carrying_graphic_id, \\",
  n!"            resource_gathering_sound_id, \\",
  n!"            resource_deposit_sound_id, \\",
  n!"            wwise_resource_gathering_sound_id, \\",
  n!"            wwise_resource_deposit_sound_id, \\",
  n!"            enabled = struct.unpack(",
  n!"            FORMAT_88,",
  n!"            content.consume_range(FORMAT_LENGTH_88)",
  n!"        )",
  n!"",
  n!"        return cls(",
  n!"            task_type=task_type,",
  n!"            id=id_,",
  n!"            is_default=is_default,",
  n!"            action_type=action_type,",
  n!"            class_id=class_id,",
  n!"            unit_id=unit_id,",
  n!"            terrain_id=terrain_id,",
  n!"            resource_in=resource_in,",
  n!"            resource_multiplier=resource_multiplier,",
  n!"            resource_out=resource_out,",
  n!"            unused_resource=unused_resource,",
  n!"            work_value_1=work_value_1,",
  n!"            work_value_2=work_value_2,",
  n!"            work_range=work_range,",
  n!"            auto_search_targets=auto_search_targets,",
  n!"            search_wait_time=search_wait_time,",
  n!"            enable_targeting=enable_targeting,",
  n!"            combat_level_flag=combat_level_flag,",
  n!"            gather_type=gather_type,",
  n!"            work_flag_2=work_flag_2,",
  n!"            target_diplomacy=target_diplomacy,",
  n!"            carry_check=carry_check,",
  n!"            pick_for_construction=pick_for_construction,",
  n!"            moving_graphic_id=moving_graphic_id,",
  n!"            proceeding_graphic_id=proceeding_graphic_id,",
  n!"            working_graphic_id=working_graphic_id,",
  n!"            carrying_graphic_id=carrying_graphic_id,",
  n!"            resource_gathering_sound_id=resource_gathering_sound_id,",
  n!"            resource_deposit_sound_id=resource_deposit_sound_id,",
  n!"            wwise_resource_gathering_sound_id=wwise_resource_gathering_sound_id,",
  n!"            wwise_resource_deposit_sound_id=wwise_resource_deposit_sound_id,",
  n!"            enabled=enabled,",
  n!"        )",
  n!"",
  n!"    def to_bytes(self, version: Version) -> bytes:",
  n!"        if version >= Version.VER_88:",
  n!"            return self.to_bytes_88(version)",
  n!"        return self.to_bytes_84(version)",
  n!"",
  n!"",
  n!"    def to_bytes_84(self, version: Version) -> bytes:",
  n!"        return struct.pack(FORMAT,",
  n!"                           self.task_type,",
  n!"                           self.id,",
  n!"                           self.is_default,",
  n!"                           self.action_type,",
  n!"                           self.class_id,",
  n!"                           self.unit_id,",
  n!"                           self.terrain_id,",
  n!"                           self.resource_in,",
  n!"                           self.resource_multiplier,",
  n!"                           self.resource_out,",
  n!"                           self.unused_resource,",
  n!"                           self.work_value_1,",
  n!"                           self.work_value_2,",
  n!"                           self.work_range,",
  n!"                           self.auto_search_targets,",
  n!"                           self.search_wait_time,",
  n!"                           self.enable_targeting,",
  n!"                           self.combat_level_flag,",
  n!"                           self.gather_type,",
  n!"                           self.work_flag_2,",
  n!"                           self.target_diplomacy,",
  n!"                           self.carry_check,",
  n!"                           self.pick_for_construction,",
  n!"                           self.moving_graphic_id,",
  n!"                           self.proceeding_graphic_id,",
  n!"                           self.working_graphic_id,",
  n!"                           self.carrying_graphic_id,",
  n!"                           self.resource_gathering_sound_id,",
  n!"                           self.resource_deposit_sound_id,",
  n!"                           self.wwise_resource_gathering_sound_id,",
  n!"                           self.wwise_resource_deposit_sound_id,",
  n!"                           )",
  n!"",
  n!"",
  n!"    def to_bytes_88(self, version: Version) -> bytes:",
  n!"        return struct.pack(FORMAT_88,",
  n!"                           self.task_type,",
  n!"                           self.id,",
  n!"                           self.is_default,",
  n!"                           self.action_type,",
  n!"                           self.class_id,",
  n!"                           self.unit_id,",
  n!"                           self.terrain_id,",
  n!"                           self.resource_in,",
  n!"                           self.resource_multiplier,",
  n!"                           self.resource_out,",
  n!"                           self.unused_resource,",
  n!"                           self.work_value_1,",
  n!"                           self.work_value_2,",
  n!"                           self.work_range,",
  n!"                           self.auto_search_targets,",
  n!"                           self.search_wait_time,",
  n!"                           self.enable_targeting,",
  n!"                           self.combat_level_flag,",
  n!"                           self.gather_type,",
  n!"                           self.work_flag_2,",
  n!"                           self.target_diplomacy,",
  n!"                           self.carry_check,",
  n!"                           self.pick_for_construction,",
  n!"                           self.moving_graphic_id,",
  n!"                           self.proceeding_graphic_id,",
  n!"                           self.working_graphic_id,",
  n!"                           self.carrying_graphic_id,",
  n!"                           self.resource_gathering_sound_id,",
  n!"                           self.resource_deposit_sound_id,",
  n!"                           self.wwise_resource_gathering_sound_id,",
  n!"                           self.wwise_resource_deposit_sound_id,",
  n!"                           self.enabled,",
  n!"                           )"]

/-- The lines of `/repo/src/genieutils/unit.py`. -/
def text_unit : List Nat := [
  n!"import struct",
  n!"from dataclasses import dataclass",
  n!"",
  n!"from genieutils.common import ByteHandler, UnitType, GenieClass",
  n!"from genieutils.task import Task",
  n!"from genieutils.versions import Version",
  n!"",
  n!"RESOURCE_STORAGE_FORMAT = '<hfb'",
  n!"RESOURCE_STORAGE_FORMAT_LENGTH = 7",
  n!"",
  n!"",
  n!"@dataclass(slots=True)",
  n!"class ResourceStorage(GenieClass):",
  n!"    type: int",
  n!"    amount: float",
  n!"    flag: int",
  n!"",
  n!"    @classmethod",
  n!"    def from_bytes(cls, content: ByteHandler) -> 'ResourceStorage':",
  n!"        type_, amount, flag = struct.unpack(RESOURCE_STORAGE_FORMAT,",
  n!"                                            content.consume_range(RESOURCE_STORAGE_FORMAT_LENGTH))",
  n!"        return cls(",
  n!"            type=type_,",
  n!"            amount=amount,",
  n!"            flag=flag,",
  n!"        )",
  n!"",
  n!"    def to_bytes(self, version: Version) -> bytes:",
  n!"        return struct.pack(RESOURCE_STORAGE_FORMAT, self.type, self.amount, self.flag)",
  n!"",
  n!"",
  n!"DAMAGE_GRAPHIC_FORMAT = '<hhb'",
  n!"DAMAGE_GRAPHIC_FORMAT_LENGTH = 5",
  n!"",
  n!"",
  n!"@dataclass(slots=True)",
  n!"class DamageGraphic(GenieClass):",
  n!"    graphic_id: int",
  n!"    damage_percent: int",
  n!"    apply_mode: int",
  n!"",
  n!"    @classmethod",
  n!"    def from_bytes(cls, content: ByteHandler) -> 'DamageGraphic':",
  n!"        graphic_id, \\",
  n!"            damage_percent, \\",
  n!"            apply_mode = struct.unpack(DAMAGE_GRAPHIC_FORMAT, content.consume_range(DAMAGE_GRAPHIC_FORMAT_LENGTH))",
  n!"        return cls(",
  n!"            graphic_id=graphic_id,",
  n!"            damage_percent=damage_percent,",
  n!"            apply_mode=apply_mode,",
  n!"        )",
  n!"",
  n!"    def to_bytes(self, version: Version) -> bytes:",
  n!"        return struct.pack(DAMAGE_GRAPHIC_FORMAT, self.graphic_id, self.damage_percent, self.apply_mode)",
  n!"",
  n!"",
  n!"DEAD_FISH_FORMAT = '<hhfbhbfbffffff'",
  n!"DEAD_FISH_FORMAT_LENGTH = 41",
  n!"",
  n!"",
  n!"@dataclass(slots=True)",
  n!"class DeadFish(GenieClass):",
  n!"    walking_graphic: int",
  n!"    running_graphic: int",
  n!"    rotation_speed: float",
  n!"    old_size_class: int",
  n!"    tracking_unit: int",
  n!"    tracking_unit_mode: int",
  n!"    tracking_unit_density: float",
  n!"    old_move_algorithm: int",
  n!"    turn_radius: float",
  n!"    turn_radius_speed: float",
  n!"    max_yaw_per_second_moving: float",
  n!"    stationary_yaw_revolution_time: float",
  n!"    max_yaw_per_second_stationary: float",
  n!"    min_collision_size_multiplier: float",
  n!"",
  n!"    @classmethod",
  n!"    def from_bytes(cls, content: ByteHandler) -> 'DeadFish':",
  n!"        walking_graphic, \\",
  n!"            running_graphic, \\",
  n!"            rotation_speed, \\",
  n!"            old_size_class, \\",
  n!"            tracking_unit, \\",
  n!"            tracking_unit_mode, \\",
  n!"            tracking_unit_density, \\",
  n!"            old_move_algorithm, \\",
  n!"            turn_radius, \\",
  n!"            turn_radius_speed, \\",
  n!"            max_yaw_per_second_moving, \\",
  n!"            stationary_yaw_revolution_time, \\",
  n!"            max_yaw_per_second_stationary, \\",
  n!"            min_collision_size_multiplier = struct.unpack(DEAD_FISH_FORMAT,",
  n!"                                                          content.consume_range(DEAD_FISH_FORMAT_LENGTH))",
  n!"        return cls(",
  n!"            walking_graphic=walking_graphic,",
  n!"            running_graphic=running_graphic,",
  n!"            rotation_speed=rotation_speed,",
  n!"            old_size_class=old_size_class,",
  n!"            tracking_unit=tracking_unit,",
  n!"            tracking_unit_mode=tracking_unit_mode,",
  n!"            tracking_unit_density=tracking_unit_density,",
  n!"            old_move_algorithm=old_move_algorithm,",
  n!"            turn_radius=turn_radius,",
  n!"            turn_radius_speed=turn_radius_speed,",
  n!"            max_yaw_per_second_moving=max_yaw_per_second_moving,",
  n!"            stationary_yaw_revolution_time=stationary_yaw_revolution_time,",
  n!"            max_yaw_per_second_stationary=max_yaw_per_second_stationary,",
  n!"            min_collision_size_multiplier=min_collision_size_multiplier,",
  n!"        )",
  n!"",
  n!"    def to_bytes(self, version: Version) -> bytes:",
  n!"        return struct.pack(DEAD_FISH_FORMAT,",
  n!"                           self.walking_graphic,",
  n!"                           self.running_graphic,",
  n!"                           self.rotation_speed,",
  n!"                           self.old_size_class,",
  n!"                           self.tracking_unit,",
  n!"                           self.tracking_unit_mode,",
  n!"                           self.tracking_unit_density,",
  n!"                           self.old_move_algorithm,",
  n!"                           self.turn_radius,",
  n!"                           self.turn_radius_speed,",
  n!"                           self.max_yaw_per_second_moving,",
  n!"                           self.stationary_yaw_revolution_time,",
  n!"                           self.max_yaw_per_second_stationary,",
  n!"                           self.min_collision_size_multiplier",
  n!"                           )",
  n!"",
  n!"",
  n!"@dataclass(slots=True)",
  n!"class Bird(GenieClass):",
  n!"    default_task_id: int",
  n!"    search_radius: float",
  n!"    work_rate: float",
  n!"    drop_sites: list[int]",
  n!"    task_swap_group: int",
  n!"    attack_sound: int",
  n!"    move_sound: int",
  n!"    wwise_attack_sound_id: int",
  n!"    wwise_move_sound_id: int",
  n!"    run_pattern: int",
  n!"    tasks: list[Task]",
  n!"",
  n!"    @classmethod",
  n!"    def from_bytes(cls, content: ByteHandler) -> 'Bird':",
  n!"        default_task_id = content.read_int_16()",
  n!"        search_radius = content.read_float()",
  n!"        work_rate = content.read_float()",
  n!"        drop_sites_size = 3",
  n!"        if content.version > Version.VER_77:",
  n!"            drop_sites_size = content.read_int_16()",
  n!"        drop_sites = content.read_int_16_array(drop_sites_size)",
  n!"        task_swap_group = content.read_int_8()",
  n!"        attack_sound = content.read_int_16()",
  n!"        move_sound = content.read_int_16()",
  n!"        wwise_attack_sound_id = content.read_int_32()",
  n!"        wwise_move_sound_id = content.read_int_32()",
  n!"        run_pattern = content.read_int_8()",
  n!"        task_size = content.read_int_16()",
  n!"        tasks = content.read_class_array(Task, task_size)",
  n!"        return cls(",
  n!"            default_task_id=default_task_id,",
  n!"            search_radius=search_radius,",
  n!"            work_rate=work_rate,",
  n!"            drop_sites=drop_sites,",
  n!"            task_swap_group=task_swap_group,",
  n!"            attack_sound=attack_sound,",
  n!"            move_sound=move_sound,",
  n!"            wwise_attack_sound_id=wwise_attack_sound_id,",
  n!"            wwise_move_sound_id=wwise_move_sound_id,",
  n!"            run_pattern=run_pattern,",
  n!"            tasks=tasks,",
  n!"        )",
  n!"",
  n!"    def to_bytes(self, version: Version) -> bytes:",
  n!"        return b''.join([",
  n!"            self.write_int_16(self.default_task_id),",
  n!"            self.write_float(self.search_radius),",
  n!"            self.write_float(self.work_rate),",
  n!"            self.write_int_16(len(self.drop_sites), if_=(version >= Version.VER_78)),",
  n!"            self.write_int_16_array(self.drop_sites),",
  n!"            self.write_int_8(self.task_swap_group),",
  n!"            self.write_int_16(self.attack_sound),",
  n!"            self.write_int_16(self.move_sound),",
  n!"            self.write_int_32(self.wwise_attack_sound_id),",
  n!"            self.write_int_32(self.wwise_move_sound_id),",
  n!"            self.write_int_8(self.run_pattern),",
  n!"            self.write_int_16(len(self.tasks)),",
  n!"            self.write_class_array(self.tasks, version),",
  n!"        ])",
  n!"",
  n!"",
  n!"ATTACK_OR_ARMOR_FORMAT = '<hh'",
  n!"ATTACK_OR_ARMOR_FORMAT_LENGTH = 4",
  n!"",
  n!"",
  n!"@dataclass(slots=True)",
  n!"class AttackOrArmor(GenieClass):",
  n!"    class_: int",
  n!"    amount: int",
  n!"",
  n!"    @classmethod",
  n!"    def from_bytes(cls, content: ByteHandler) -> 'AttackOrArmor':",
  n!"        class_, amount = struct.unpack(ATTACK_OR_ARMOR_FORMAT, content.consume_range(ATTACK_OR_ARMOR_FORMAT_LENGTH))",
  n!"        return cls(",
  n!"            class_=class_,",
  n!"            amount=amount,",
  n!"        )",
  n!"",
  n!"    def to_bytes(self, version: Version) -> bytes:",
  n!"        return struct.pack(ATTACK_OR_ARMOR_FORMAT, self.class_, self.amount)",
  n!"",
  n!"",
  n!"@dataclass(slots=True)",
  n!"class Type50(GenieClass):",
  n!"    base_armor: int",
  n!"    attacks: list[AttackOrArmor]",
  n!"    armours: list[AttackOrArmor]",
  n!"    defense_terrain_bonus: int",
  n!"    bonus_damage_resistance: float",
  n!"    max_range: float",
  n!"    blast_width: float",
  n!"    reload_time: float",
  n!"    projectile_unit_id: int",
  n!"    accuracy_percent: int",
  n!"    break_off_combat: int",
  n!"    frame_delay: int",
  n!"    graphic_displacement: tuple[float, float, float]",
  n!"    blast_attack_level: int",
  n!"    min_range: float",
  n!"    accuracy_dispersion: float",
  n!"    attack_graphic: int",
  n!"    displayed_melee_armour: int",
  n!"    displayed_attack: int",
  n!"    displayed_range: float",
  n!"    displayed_reload_time: float",
  n!"    blast_damage: float",
  n!"    damage_reflection: float",
  n!"    friendly_fire_damage: float",
  n!"    interrupt_frame: int",
  n!"    garrison_firepower: float",
  n!"    attack_graphic_2: int",
  n!"",
  n!"    @classmethod",
  n!"    def from_bytes(cls, content: ByteHandler) -> 'Type50':",
  n!"        base_armor = content.read_int_16()",
  n!"        attack_count = content.read_int_16()",
  n!"        attacks = content.read_class_array(AttackOrArmor, attack_count)",
  n!"        armour_count = content.read_int_16()",
  n!"        armours = content.read_class_array(AttackOrArmor, armour_count)",
  n!"        defense_terrain_bonus = content.read_int_16()",
  n!"        bonus_damage_resistance = content.read_float()",
  n!"        max_range = content.read_float()",
  n!"        blast_width = content.read_float()",
  n!"        reload_time = content.read_float()",
  n!"        projectile_unit_id = content.read_int_16()",
  n!"        accuracy_percent = content.read_int_16()",
  n!"        break_off_combat = content.read_int_8()",
  n!"        frame_delay = content.read_int_16()",
  n!"        graphic_displacement = content.read_float_array_3()",
  n!"        blast_attack_level = content.read_int_8()",
  n!"        min_range = content.read_float()",
  n!"        accuracy_dispersion = content.read_float()",
  n!"        attack_graphic = content.read_int_16()",
  n!"        displayed_melee_armour = content.read_int_16()",
  n!"        displayed_attack = content.read_int_16()",
  n!"        displayed_range = content.read_float()",
  n!"        displayed_reload_time = content.read_float()",
  n!"        blast_damage = content.read_float()",
  n!"        damage_reflection = 0.0",
  n!"        friendly_fire_damage = 1.0",
  n!"        interrupt_frame = -1",
  n!"        garrison_firepower = 0.0",
  n!"        attack_graphic_2 = -1",
  n!"        if content.version >= Version.VER_84:",
  n!"            damage_reflection = content.read_float()",
  n!"            friendly_fire_damage = content.read_float()",
  n!"            interrupt_frame = content.read_int_16()",
  n!"            garrison_firepower = content.read_float()",
  n!"            attack_graphic_2 = content.read_int_16()",
  n!"        return cls(",
  n!"            base_armor=base_armor,",
  n!"            attacks=attacks,",
  n!"            armours=armours,",
  n!"            defense_terrain_bonus=defense_terrain_bonus,",
  n!"            bonus_damage_resistance=bonus_damage_resistance,",
  n!"            max_range=max_range,",
  n!"            blast_width=blast_width,",
  n!"            reload_time=reload_time,",
  n!"            projectile_unit_id=projectile_unit_id,",
  n!"            accuracy_percent=accuracy_percent,",
  n!"            break_off_combat=break_off_combat,",
  n!"            frame_delay=frame_delay,",
  n!"            graphic_displacement=graphic_displacement,",
  n!"            blast_attack_level=blast_attack_level,",
  n!"            min_range=min_range,",
  n!"            accuracy_dispersion=accuracy_dispersion,",
  n!"            attack_graphic=attack_graphic,",
  n!"            displayed_melee_armour=displayed_melee_armour,",
  n!"            displayed_attack=displayed_attack,",
  n!"            displayed_range=displayed_range,",
  n!"            displayed_reload_time=displayed_reload_time,",
  n!"            blast_damage=blast_damage,",
  n!"            damage_reflection=damage_reflection,",
  n!"            friendly_fire_damage=friendly_fire_damage,",
  n!"            interrupt_frame=interrupt_frame,",
  n!"            garrison_firepower=garrison_firepower,",
  n!"            attack_graphic_2=attack_graphic_2,",
  n!"        )",
  n!"",
  n!"    def to_bytes(self, version: Version) -> bytes:",
  n!"        value = b''.join([",
  n!"            self.write_int_16(self.base_armor),",
  n!"            self.write_int_16(len(self.attacks)),",
  n!"            self.write_class_array(self.attacks, version),",
  n!"            self.write_int_16(len(self.armours)),",
  n!"            self.write_class_array(self.armours, version),",
  n!"            self.write_int_16(self.defense_terrain_bonus),",
  n!"            self.write_float(self.bonus_damage_resistance),",
  n!"            self.write_float(self.max_range),",
  n!"            self.write_float(self.blast_width),",
  n!"            self.write_float(self.reload_time),",
  n!"            self.write_int_16(self.projectile_unit_id),",
  n!"            self.write_int_16(self.accuracy_percent),",
  n!"            self.write_int_8(self.break_off_combat),",
  n!"            self.write_int_16(self.frame_delay),",
  n!"            self.write_float_array(self.graphic_displacement),",
  n!"            self.write_int_8(self.blast_attack_level),",
  n!"            self.write_float(self.min_range),",
  n!"            self.write_float(self.accuracy_dispersion),",
  n!"            self.write_int_16(self.attack_graphic),",
  n!"            self.write_int_16(self.displayed_melee_armour),",
  n!"            self.write_int_16(self.displayed_attack),",
  n!"            self.write_float(self.displayed_range),",
  n!"            self.write_float(self.displayed_reload_time),",
  n!"            self.write_float(self.blast_damage),",
  n!"        ])",
  n!"        if version >= Version.VER_84:",
  n!"            value += b''.join([",
  n!"                self.write_float(self.damage_reflection),",
  n!"                self.write_float(self.friendly_fire_damage),",
  n!"                self.write_int_16(self.interrupt_frame),",
  n!"                self.write_float(self.garrison_firepower),",
  n!"                self.write_int_16(self.attack_graphic_2),",
  n!"            ])",
  n!"        return value",
  n!"",
  n!"",
  n!"PROJECTILE_FORMAT = '<bbbbbf'",
  n!"PROJECTILE_FORMAT_LENGTH = 9",
  n!"",
  n!"",
  n!"@dataclass(slots=True)",
  n!"class Projectile(GenieClass):",
  n!"    projectile_type: int",
  n!"    smart_mode: int",
  n!"    hit_mode: int",
  n!"    vanish_mode: int",
  n!"    area_effect_specials: int",
  n!"    projectile_arc: float",
  n!"",
  n!"    @classmethod",
  n!"    def from_bytes(cls, content: ByteHandler) -> 'Projectile':",
  n!"        projectile_type, \\",
  n!"            smart_mode, \\",
  n!"            hit_mode, \\",
  n!"            vanish_mode, \\",
  n!"            area_effect_specials, \\",
  n!"            projectile_arc = struct.unpack(PROJECTILE_FORMAT, content.consume_range(PROJECTILE_FORMAT_LENGTH))",
  n!"        return cls(",
  n!"            projectile_type=projectile_type,",
  n!"            smart_mode=smart_mode,",
  n!"            hit_mode=hit_mode,",
  n!"            vanish_mode=vanish_mode,",
  n!"            area_effect_specials=area_effect_specials,",
  n!"            projectile_arc=projectile_arc,",
  n!"        )",
  n!"",
  n!"    def to_bytes(self, version: Version) -> bytes:",
  n!"        return struct.pack(PROJECTILE_FORMAT,",
  n!"                           self.projectile_type,",
  n!"                           self.smart_mode,",
  n!"                           self.hit_mode,",
  n!"                           self.vanish_mode,",
  n!"                           self.area_effect_specials,",
  n!"                           self.projectile_arc,",
  n!"                           )",
  n!"",
  n!"",
  n!"RESOURCE_COST_FORMAT = '<hhh'",
  n!"RESOURCE_COST_FORMAT_LENGTH = 6",
  n!"",
  n!"",
  n!"@dataclass(slots=True)",
  n!"class ResourceCost(GenieClass):",
  n!"    type: int",
  n!"    amount: int",
  n!"    flag: int",
  n!"",
  n!"    @classmethod",
  n!"    def from_bytes(cls, content: ByteHandler) -> 'ResourceCost':",
  n!"        type_, amount, flag = struct.unpack(RESOURCE_COST_FORMAT, content.consume_range(RESOURCE_COST_FORMAT_LENGTH))",
  n!"        return cls(",
  n!"            type=type_,",
  n!"            amount=amount,",
  n!"            flag=flag,",
  n!"        )",
  n!"",
  n!"    def to_bytes(self, version: Version) -> bytes:",
  n!"        return struct.pack(RESOURCE_COST_FORMAT, self.type, self.amount, self.flag)",
  n!"",
  n!"",
  n!"TRAIN_LOCATION_FORMAT = '<hhb'",
  n!"TRAIN_LOCATOIN_FORMAT_LENGTH = struct.calcsize(TRAIN_LOCATION_FORMAT)",
  n!"",
  n!"TRAIN_LOCATION_FORMAT_88 = '<hhbl'",
  n!"TRAIN_LOCATOIN_FORMAT_LENGTH_88 = struct.calcsize(TRAIN_LOCATION_FORMAT_88)",
  n!"",
  n!"",
  n!"@dataclass(slots=True)",
  n!"class TrainLocation(GenieClass):",
  n!"    train_time: int",
  n!"    unit_id: int",
  n!"    button_id: int",
  n!"    hot_key_id: int",
  n!"",
  n!"    @classmethod",
  n!"    def from_bytes(cls, content: ByteHandler) -> 'TrainLocation':",
  n!"        if content.version >= Version.VER_88:",
  n!"            return cls.from_bytes_88(content)",
  n!"        return cls.from_bytes_84(content)",
  n!"",
  n!"    @classmethod",
  n!"    def from_bytes_84(cls, content: ByteHandler) -> 'TrainLocation':",
  n!"        train_time, \\",
  n!"            unit_id, \\",
  n!"            button_id = struct.unpack(TRAIN_LOCATION_FORMAT, content.consume_range(TRAIN_LOCATOIN_FORMAT_LENGTH))",
  n!"        return cls(",
  n!"            train_time=train_time,",
  n!"            unit_id=unit_id,",
  n!"            button_id=button_id,",
  n!"            hot_key_id=16_000,",
  n!"        )",
  n!"",
  n!"    @classmethod",
  n!"    def from_bytes_88(cls, content: ByteHandler) -> 'TrainLocation':",
  n!"        train_time, \\",
  n!"            unit_id, \\",
  n!"            button_id, \\",
  n!"            hot_key_id = struct.unpack(TRAIN_LOCATION_FORMAT_88, content.consume_range(TRAIN_LOCATOIN_FORMAT_LENGTH_88))",
  n!"        return cls(",
  n!"            train_time=train_time,",
  n!"            unit_id=unit_id,",
  n!"            button_id=button_id,",
  n!"            hot_key_id=hot_key_id,",
  n!"        )",
  n!"",
  n!"    def to_bytes(self, version: Version) -> bytes:",
  n!"        if version >= Version.VER_88:",
  n!"            return struct.pack(TRAIN_LOCATION_FORMAT_88, self.train_time, self.unit_id, self.button_id, self.hot_key_id)",
  n!"        return struct.pack(TRAIN_LOCATION_FORMAT, self.train_time, self.unit_id, self.button_id)",
  n!"",
  n!"",
  n!"CREATABLE_FORMAT = '<hhbffbblhhhffhhffffbfffllbh'",
  n!"CREATABLE_FORMAT_LENGTH = 77",
  n!"CREATABLE_FORMAT_84 = '<hhbffbblhhhhffhhhlbfhllhffffbfffllbh'",
  n!"CREATABLE_FORMAT_LENGTH_84 = struct.calcsize(CREATABLE_FORMAT_84)",
  n!"CREATABLE_FORMAT_88 = '<ffbblhhhhffhhhlbfhllhffffbfffllbh'",
  n!"CREATABLE_FORMAT_LENGTH_88 = struct.calcsize(CREATABLE_FORMAT_88)",
  n!"",
  n!"",
  n!"@dataclass(slots=True)",
  n!"class Creatable(GenieClass):",
  n!"    resource_costs: tuple[ResourceCost, ResourceCost, ResourceCost]",
  n!"    train_locations: list[TrainLocation]",
  n!"    rear_attack_modifier: float",
  n!"    flank_attack_modifier: float",
  n!"    creatable_type: int",
  n!"    hero_mode: int",
  n!"    garrison_graphic: int",
  n!"    spawning_graphic: int",
  n!"    upgrade_graphic: int",
  n!"    hero_glow_graphic: int",
  n!"    idle_attack_graphic: int",
  n!"    max_charge: float",
  n!"    recharge_rate: float",
  n!"    charge_event: int",
  n!"    charge_type: int",
  n!"    charge_target: int",
  n!"    charge_projectile_unit: int",
  n!"    attack_priority: int",
  n!"    invulnerability_level: float",
  n!"    button_icon_id: int",
  n!"    button_short_tooltip_id: int",
  n!"    button_extended_tooltip_id: int",
  n!"    button_hotkey_action: int",
  n!"    min_conversion_time_mod: float",
  n!"    max_conversion_time_mod: float",
  n!"    conversion_chance_mod: float",
  n!"    total_projectiles: float",
  n!"    max_total_projectiles: int",
  n!"    projectile_spawning_area: tuple[float, float, float]",
  n!"    secondary_projectile_unit: int",
  n!"    special_graphic: int",
  n!"    special_ability: int",
  n!"    displayed_pierce_armour: int",
  n!"",
  n!"    @classmethod",
  n!"    def from_bytes(cls, content: ByteHandler) -> 'Creatable':",
  n!"        if content.version >= Version.VER_88:",
  n!"            return cls.from_bytes_88(content)",
  n!"        elif content.version >= Version.VER_84:",
  n!"            return cls.from_bytes_84(content)",
  n!"        return cls.from_bytes_78(content)",
  n!"",
  n!"    @classmethod",
  n!"    def from_bytes_78(cls, content: ByteHandler) -> 'Creatable':",
  n!"        resource_costs = content.read_class_array_3(ResourceCost)",
  n!"        train_time, \\",
  n!"            train_location_id, \\",
  n!"            button_id, \\",
  n!"            rear_attack_modifier, \\",
  n!"            flank_attack_modifier, \\",
  n!"            creatable_type, \\",
  n!"            hero_mode, \\",
  n!"            garrison_graphic, \\",
  n!"            spawning_graphic, \\",
  n!"            upgrade_graphic, \\",
  n!"            hero_glow_graphic, \\",
  n!"            max_charge, \\",
  n!"            recharge_rate, \\",
  n!"            charge_event, \\",
  n!"            charge_type, \\",
  n!"            min_conversion_time_mod, \\",
  n!"            max_conversion_time_mod, \\",
  n!"            conversion_chance_mod, \\",
  n!"            total_projectiles, \\",
  n!"            max_total_projectiles, \\",
  n!"            projectile_spawning_area_1, \\",
  n!"            projectile_spawning_area_2, \\",
  n!"            projectile_spawning_area_3, \\",
  n!"            secondary_projectile_unit, \\",
  n!"            special_graphic, \\",
  n!"            special_ability, \\",
  n!"            displayed_pierce_armour = struct.unpack(CREATABLE_FORMAT, content.consume_range(CREATABLE_FORMAT_LENGTH))",
  n!"        idle_attack_graphic = -1",
  n!"        charge_target = 0",
  n!"        charge_projectile_unit = -1",
  n!"        attack_priority = 0",
  n!"        invulnerability_level = 0",
  n!"        button_icon_id = -1",
  n!"        button_short_tooltip_id = -1",
  n!"        button_extended_tooltip_id = -1",
  n!"        button_hotkey_action = -1",
  n!"        train_locations = [",
  n!"            TrainLocation(train_time=train_time, unit_id=train_location_id, button_id=button_id, hot_key_id=16000),",
  n!"        ]",
  n!"        return cls(",
  n!"            resource_costs=resource_costs,",
  n!"            train_locations=train_locations,",
  n!"            rear_attack_modifier=rear_attack_modifier,",
  n!"            flank_attack_modifier=flank_attack_modifier,",
  n!"            creatable_type=creatable_type,",
  n!"            hero_mode=hero_mode,",
  n!"            garrison_graphic=garrison_graphic,",
  n!"            spawning_graphic=spawning_graphic,",
  n!"            upgrade_graphic=upgrade_graphic,",
  n!"            hero_glow_graphic=hero_glow_graphic,",
  n!"            idle_attack_graphic=idle_attack_graphic,",
  n!"            max_charge=max_charge,",
  n!"            recharge_rate=recharge_rate,",
  n!"            charge_event=charge_event,",
  n!"            charge_type=charge_type,",
  n!"            charge_target=charge_target,",
  n!"            charge_projectile_unit=charge_projectile_unit,",
  n!"            attack_priority=attack_priority,",
  n!"            invulnerability_level=invulnerability_level,",
  n!"            button_icon_id=button_icon_id,",
  n!"            button_short_tooltip_id=button_short_tooltip_id,",
  n!"            button_extended_tooltip_id=button_extended_tooltip_id,",
  n!"            button_hotkey_action=button_hotkey_action,",
  n!"            min_conversion_time_mod=min_conversion_time_mod,",
  n!"            max_conversion_time_mod=max_conversion_time_mod,",
  n!"            conversion_chance_mod=conversion_chance_mod,",
  n!"            total_projectiles=total_projectiles,",
  n!"            max_total_projectiles=max_total_projectiles,",
  n!"            projectile_spawning_area=(",
  n!"                projectile_spawning_area_1,",
  n!"                projectile_spawning_area_2,",
  n!"                projectile_spawning_area_3),",
  n!"            secondary_projectile_unit=secondary_projectile_unit,",
  n!"            special_graphic=special_graphic,",
  n!"            special_ability=special_ability,",
  n!"            displayed_pierce_armour=displayed_pierce_armour,",
  n!"        )",
  n!"",
  n!"    @classmethod",
  n!"    def from_bytes_84(cls, content: ByteHandler) -> 'Creatable':",
  n!"        resource_costs = content.read_class_array_3(ResourceCost)",
  n!"        train_time, \\",
  n!"            train_location_id, \\",
  n!"            button_id, \\",
  n!"            rear_attack_modifier, \\",
  n!"            flank_attack_modifier, \\",
  n!"            creatable_type, \\",
  n!"            hero_mode, \\",
  n!"            garrison_graphic, \\",
  n!"            spawning_graphic, \\",
  n!"            upgrade_graphic, \\",
  n!"            hero_glow_graphic, \\",
  n!"            idle_attack_graphic, \\",
  n!"            max_charge, \\",
  n!"            recharge_rate, \\",
  n!"            charge_event, \\",
  n!"            charge_type, \\",
  n!"            charge_target, \\",
  n!"            charge_projectile_unit, \\",
  n!"            attack_priority, \\",
  n!"            invulnerability_level, \\",
  n!"            button_icon_id, \\",
  n!"            button_short_tooltip_id, \\",
  n!"            button_extended_tooltip_id, \\",
  n!"            button_hotkey_action, \\",
  n!"            min_conversion_time_mod, \\",
  n!"            max_conversion_time_mod, \\",
  n!"            conversion_chance_mod, \\",
  n!"            total_projectiles, \\",
  n!"            max_total_projectiles, \\",
  n!"            projectile_spawning_area_1, \\",
  n!"            projectile_spawning_area_2, \\",
  n!"            projectile_spawning_area_3, \\",
  n!"            secondary_projectile_unit, \\",
  n!"            special_graphic, \\",
  n!"            special_ability, \\",
  n!"            displayed_pierce_armour = struct.unpack(CREATABLE_FORMAT_84,",
  n!"                                                   content.consume_range(CREATABLE_FORMAT_LENGTH_84))",
  n!"        train_locations = [",
  n!"            TrainLocation(train_time=train_time, unit_id=train_location_id, button_id=button_id, hot_key_id=16000),",
  n!"        ]",
  n!"        return cls(",
  n!"            resource_costs=resource_costs,",
  n!"            train_locations=train_locations,",
  n!"            rear_attack_modifier=rear_attack_modifier,",
  n!"            flank_attack_modifier=flank_attack_modifier,",
  n!"            creatable_type=creatable_type,",
  n!"            hero_mode=hero_mode,",
  n!"            garrison_graphic=garrison_graphic,",
  n!"            spawning_graphic=spawning_graphic,",
  n!"            upgrade_graphic=upgrade_graphic,",
  n!"            hero_glow_graphic=hero_glow_graphic,",
  n!"            idle_attack_graphic=idle_attack_graphic,",
  n!"            max_charge=max_charge,",
  n!"            recharge_rate=recharge_rate,",
  n!"            charge_event=charge_event,",
  n!"            charge_type=charge_type,",
  n!"            charge_target=charge_target,",
  n!"            charge_projectile_unit=charge_projectile_unit,",
  n!"            attack_priority=attack_priority,",
  n!"            invulnerability_level=invulnerability_level,",
  n!"            button_icon_id=button_icon_id,",
  n!"            button_short_tooltip_id=button_short_tooltip_id,",
  n!"            button_extended_tooltip_id=button_extended_tooltip_id,",
  n!"            button_hotkey_action=button_hotkey_action,",
  n!"            min_conversion_time_mod=min_conversion_time_mod,",
  n!"            max_conversion_time_mod=max_conversion_time_mod,",
  n!"            conversion_chance_mod=conversion_chance_mod,",
  n!"            total_projectiles=total_projectiles,",
  n!"            max_total_projectiles=max_total_projectiles,",
  n!"            projectile_spawning_area=(",
  n!"                projectile_spawning_area_1,",
  n!"                projectile_spawning_area_2,",
  n!"                projectile_spawning_area_3),",
  n!"            secondary_projectile_unit=secondary_projectile_unit,",
  n!"            special_graphic=special_graphic,",
  n!"            special_ability=special_ability,",
  n!"            displayed_pierce_armour=displayed_pierce_armour,",
  n!"        )",
  n!"",
  n!"    @classmethod",
  n!"    def from_bytes_88(cls, content: ByteHandler) -> 'Creatable':",
  n!"        resource_costs = content.read_class_array_3(ResourceCost)",
  n!"        train_location_count = content.read_int_16()",
  n!"        train_locations = content.read_class_array(TrainLocation, train_location_count)",
  n!"        rear_attack_modifier, \\",
  n!"            flank_attack_modifier, \\",
  n!"            creatable_type, \\",
  n!"            hero_mode, \\",
  n!"            garrison_graphic, \\",
  n!"            spawning_graphic, \\",
  n!"            upgrade_graphic, \\",
  n!"            hero_glow_graphic, \\",
  n!"            idle_attack_graphic, \\",
  n!"            max_charge, \\",
  n!"            recharge_rate, \\",
  n!"            charge_event, \\",
  n!"            charge_type, \\",
  n!"            charge_target, \\",
  n!"            charge_projectile_unit, \\",
  n!"            attack_priority, \\",
  n!"            invulnerability_level, \\",
  n!"            button_icon_id, \\",
  n!"            button_short_tooltip_id, \\",
  n!"            button_extended_tooltip_id, \\",
  n!"            button_hotkey_action, \\",
  n!"            min_conversion_time_mod, \\",
  n!"            max_conversion_time_mod, \\",
  n!"            conversion_chance_mod, \\",
  n!"            total_projectiles, \\",
  n!"            max_total_projectiles, \\",
  n!"            projectile_spawning_area_1, \\",
  n!"            projectile_spawning_area_2, \\",
  n!"            projectile_spawning_area_3, \\",
  n!"            secondary_projectile_unit, \\",
  n!"            special_graphic, \\",
  n!"            special_ability, \\",
  n!"            displayed_pierce_armour = struct.unpack(CREATABLE_FORMAT_88,",
  n!"                                                   content.consume_range(CREATABLE_FORMAT_LENGTH_88))",
  n!"        return cls(",
  n!"            resource_costs=resource_costs,",
  n!"            train_locations=train_locations,",
  n!"            rear_attack_modifier=rear_attack_modifier,",
  n!"            flank_attack_modifier=flank_attack_modifier,",
  n!"            creatable_type=creatable_type,",
  n!"            hero_mode=hero_mode,",
  n!"            garrison_graphic=garrison_graphic,",
  n!"            spawning_graphic=spawning_graphic,",
  n!"            upgrade_graphic=upgrade_graphic,",
  n!"            hero_glow_graphic=hero_glow_graphic,",
  n!"            idle_attack_graphic=idle_attack_graphic,",
  n!"            max_charge=max_charge,",
  n!"            recharge_rate=recharge_rate,",
  n!"            charge_event=charge_event,",
  n!"            charge_type=charge_type,",
  n!"            charge_target=charge_target,",
  n!"            charge_projectile_unit=charge_projectile_unit,",
  n!"            attack_priority=attack_priority,",
  n!"            invulnerability_level=invulnerability_level,",
  n!"            button_icon_id=button_icon_id,",
  n!"            button_short_tooltip_id=button_short_tooltip_id,",
  n!"            button_extended_tooltip_id=button_extended_tooltip_id,",
  n!"            button_hotkey_action=button_hotkey_action,",
  n!"            min_conversion_time_mod=min_conversion_time_mod,",
  n!"            max_conversion_time_mod=max_conversion_time_mod,",
  n!"            conversion_chance_mod=conversion_chance_mod,",
  n!"            total_projectiles=total_projectiles,",
  n!"            max_total_projectiles=max_total_projectiles,",
  n!"            projectile_spawning_area=(",
  n!"                projectile_spawning_area_1,",
  n!"                projectile_spawning_area_2,",
  n!"                projectile_spawning_area_3),",
  n!"            secondary_projectile_unit=secondary_projectile_unit,",
  n!"            special_graphic=special_graphic,",
  n!"            special_ability=special_ability,",
  n!"            displayed_pierce_armour=displayed_pierce_armour,",
  n!"        )",
  n!"",
  n!"    def to_bytes(self, version: Version) -> bytes:",
  n!"        if version >= Version.VER_88:",
  n!"            return self.to_bytes_88(version)",
  n!"        if version >= Version.VER_84:",
  n!"            return self.to_bytes_84(version)",
  n!"        return self.to_bytes_78(version)",
  n!"",
  n!"    def to_bytes_78(self, version: Version) -> bytes:",
  n!"        return self.write_class_array(self.resource_costs, version) + \\",
  n!"            struct.pack(CREATABLE_FORMAT,",
  n!"                        self.train_locations[0].train_time,",
  n!"                        self.train_locations[0].unit_id,",
  n!"                        self.train_locations[0].button_id,",
  n!"                        self.rear_attack_modifier,",
  n!"                        self.flank_attack_modifier,",
  n!"                        self.creatable_type,",
  n!"                        self.hero_mode,",
  n!"                        self.garrison_graphic,",
  n!"                        self.spawning_graphic,",
  n!"                        self.upgrade_graphic,",
  n!"                        self.hero_glow_graphic,",
  n!"                        self.max_charge,",
  n!"                        self.recharge_rate,",
  n!"                        self.charge_event,",
  n!"                        self.charge_type,",
  n!"                        self.min_conversion_time_mod,",
  n!"                        self.max_conversion_time_mod,",
  n!"                        self.conversion_chance_mod,",
  n!"                        self.total_projectiles,",
  n!"                        self.max_total_projectiles,",
  n!"                        *self.projectile_spawning_area,",
  n!"                        self.secondary_projectile_unit,",
  n!"                        self.special_graphic,",
  n!"                        self.special_ability,",
  n!"                        self.displayed_pierce_armour,",
  n!"                        )",
  n!"",
  n!"    def to_bytes_84(self, version: Version) -> bytes:",
  n!"        return self.write_class_array(self.resource_costs, version) + \\",
  n!"            struct.pack(CREATABLE_FORMAT_84,",
  n!"                        self.train_locations[0].train_time,",
  n!"                        self.train_locations[0].unit_id,",
  n!"                        self.train_locations[0].button_id,",
  n!"                        self.rear_attack_modifier,",
  n!"                        self.flank_attack_modifier,",
  n!"                        self.creatable_type,",
  n!"                        self.hero_mode,",
  n!"                        self.garrison_graphic,",
  n!"                        self.spawning_graphic,",
  n!"                        self.upgrade_graphic,",
  n!"                        self.hero_glow_graphic,",
  n!"                        self.idle_attack_graphic,",
  n!"                        self.max_charge,",
  n!"                        self.recharge_rate,",
  n!"                        self.charge_event,",
  n!"                        self.charge_type,",
  n!"                        self.charge_target,",
  n!"                        self.charge_projectile_unit,",
  n!"                        self.attack_priority,",
  n!"                        self.invulnerability_level,",
  n!"                        self.button_icon_id,",
  n!"                        self.button_short_tooltip_id,",
  n!"                        self.button_extended_tooltip_id,",
  n!"                        self.button_hotkey_action,",
  n!"                        self.min_conversion_time_mod,",
  n!"                        self.max_conversion_time_mod,",
  n!"                        self.conversion_chance_mod,",
  n!"                        self.total_projectiles,",
  n!"                        self.max_total_projectiles,",
  n!"                        *self.projectile_spawning_area,",
  n!"                        self.secondary_projectile_unit,",
  n!"                        self.special_graphic,",
  n!"                        self.special_ability,",
  n!"                        self.displayed_pierce_armour,",
  n!"                        )",
  n!"",
  n!"    def to_bytes_88(self, version: Version) -> bytes:",
  n!"        return self.write_class_array(self.resource_costs, version) + \\",
  n!"        self.write_int_16(len(self.train_locations)) + \\",
  n!"        self.write_class_array(self.train_locations, version) + \\",
  n!"            struct.pack(CREATABLE_FORMAT_88,",
  n!"                        self.rear_attack_modifier,",
  n!"                        self.flank_attack_modifier,",
  n!"                        self.creatable_type,",
  n!"                        self.hero_mode,",
  n!"                        self.garrison_graphic,",
  n!"                        self.spawning_graphic,",
  n!"                        self.upgrade_graphic,",
  n!"                        self.hero_glow_graphic,",
  n!"                        self.idle_attack_graphic,",
  n!"                        self.max_charge,",
  n!"                        self.recharge_rate,",
  n!"                        self.charge_event,",
  n!"                        self.charge_type,",
  n!"                        self.charge_target,",
  n!"                        self.charge_projectile_unit,",
  n!"                        self.attack_priority,",
  n!"                        self.invulnerability_level,",
  n!"                        self.button_icon_id,",
  n!"                        self.button_short_tooltip_id,",
  n!"                        self.button_extended_tooltip_id,",
  n!"                        self.button_hotkey_action,",
  n!"                        self.min_conversion_time_mod,",
  n!"                        self.max_conversion_time_mod,",
  n!"                        self.conversion_chance_mod,",
  n!"                        self.total_projectiles,",
  n!"                        self.max_total_projectiles,",
  n!"                        *self.projectile_spawning_area,",
  n!"                        self.secondary_projectile_unit,",
  n!"                        self.special_graphic,",
  n!"                        self.special_ability,",
  n!"                        self.displayed_pierce_armour,",
  n!"                        )",
  n!"",
  n!"",
  n!"BUILDING_ANNEX_FORMAT = '<hff'",
  n!"BUILDING_ANNEX_FORMAT_LENGTH = 10",
  n!"",
  n!"",
  n!"@dataclass(slots=True)",
  n!"class BuildingAnnex(GenieClass):",
  n!"    unit_id: int",
  n!"    misplacement_x: float",
  n!"    misplacement_y: float",
  n!"",
  n!"    @classmethod",
  n!"    def from_bytes(cls, content: ByteHandler) -> 'BuildingAnnex':",
  n!"        unit_id, misplacement_x, misplacement_y = struct.unpack(BUILDING_ANNEX_FORMAT,",
  n!"                                                                content.consume_range(BUILDING_ANNEX_FORMAT_LENGTH))",
  n!"        return cls(",
  n!"            unit_id=unit_id,",
  n!"            misplacement_x=misplacement_x,",
  n!"            misplacement_y=misplacement_y,",
  n!"        )",
  n!"",
  n!"    def to_bytes(self, version: Version) -> bytes:",
  n!"        return struct.pack(BUILDING_ANNEX_FORMAT,",
  n!"                           self.unit_id,",
  n!"                           self.misplacement_x,",
  n!"                           self.misplacement_y,",
  n!"                           )",
  n!"",
  n!"",
  n!"BUILDING_ANNEX_FORMAT_1 = '<hhhhhhbhbhhhhb'",
  n!"BUILDING_ANNEX_FORMAT_1_LENGTH = 25",
  n!"",
  n!"BUILDING_ANNEX_FORMAT_2 = '<hhhhllbffhbbbbbb'",
  n!"BUILDING_ANNEX_FORMAT_2_LENGTH = 33",
  n!"",
  n!"",
  n!"@dataclass(slots=True)",
  n!"class Building(GenieClass):",
  n!"    construction_graphic_id: int",
  n!"    snow_graphic_id: int",
  n!"    destruction_graphic_id: int",
  n!"    destruction_rubble_graphic_id: int",
  n!"    researching_graphic: int",
  n!"    research_completed_graphic: int",
  n!"    adjacent_mode: int",
  n!"    graphics_angle: int",
  n!"    disappears_when_built: int",
  n!"    stack_unit_id: int",
  n!"    foundation_terrain_id: int",
  n!"    old_overlap_id: int",
  n!"    tech_id: int",
  n!"    can_burn: int",
  n!"    annexes: tuple[BuildingAnnex, BuildingAnnex, BuildingAnnex, BuildingAnnex]",
  n!"    head_unit: int",
  n!"    transform_unit: int",
  n!"    transform_sound: int",
  n!"    construction_sound: int",
  n!"    wwise_transform_sound_id: int",
  n!"    wwise_construction_sound_id: int",
  n!"    garrison_type: int",
  n!"    garrison_heal_rate: float",
  n!"    garrison_repair_rate: float",
  n!"    pile_unit: int",
  n!"    looting_table: tuple[int, int, int, int, int, int]",
  n!"",
  n!"    @classmethod",
  n!"    def from_bytes(cls, content: ByteHandler) -> 'Building':",
  n!"        construction_graphic_id, \\",
  n!"            snow_graphic_id, \\",
  n!"            destruction_graphic_id, \\",
  n!"            destruction_rubble_graphic_id, \\",
  n!"            researching_graphic, \\",
  n!"            research_completed_graphic, \\",
  n!"            adjacent_mode, \\",
  n!"            graphics_angle, \\",
  n!"            disappears_when_built, \\",
  n!"            stack_unit_id, \\",
  n!"            foundation_terrain_id, \\",
  n!"            old_overlap_id, \\",
  n!"            tech_id, \\",
  n!"            can_burn = struct.unpack(BUILDING_ANNEX_FORMAT_1, content.consume_range(BUILDING_ANNEX_FORMAT_1_LENGTH))",
  n!"",
  n!"        annexes = content.read_class_array_4(BuildingAnnex)",
  n!"",
  n!"        head_unit, \\",
  n!"            transform_unit, \\",
  n!"            transform_sound, \\",
  n!"            construction_sound, \\",
  n!"            wwise_transform_sound_id, \\",
  n!"            wwise_construction_sound_id, \\",
  n!"            garrison_type, \\",
  n!"            garrison_heal_rate, \\",
  n!"            garrison_repair_rate, \\",
  n!"            pile_unit, \\",
  n!"            looting_table_1, \\",
  n!"            looting_table_2, \\",
  n!"            looting_table_3, \\",
  n!"            looting_table_4, \\",
  n!"            looting_table_5, \\",
  n!"            looting_table_6 = struct.unpack(BUILDING_ANNEX_FORMAT_2,",
  n!"                                            content.consume_range(BUILDING_ANNEX_FORMAT_2_LENGTH))",
  n!"",
  n!"        return cls(",
  n!"            construction_graphic_id=construction_graphic_id,",
  n!"            snow_graphic_id=snow_graphic_id,",
  n!"            destruction_graphic_id=destruction_graphic_id,",
  n!"            destruction_rubble_graphic_id=destruction_rubble_graphic_id,",
  n!"            researching_graphic=researching_graphic,",
  n!"            research_completed_graphic=research_completed_graphic,",
  n!"            adjacent_mode=adjacent_mode,",
  n!"            graphics_angle=graphics_angle,",
  n!"            disappears_when_built=disappears_when_built,",
  n!"            stack_unit_id=stack_unit_id,",
  n!"            foundation_terrain_id=foundation_terrain_id,",
  n!"            old_overlap_id=old_overlap_id,",
  n!"            tech_id=tech_id,",
  n!"            can_burn=can_burn,",
  n!"            annexes=annexes,",
  n!"            head_unit=head_unit,",
  n!"            transform_unit=transform_unit,",
  n!"            transform_sound=transform_sound,",
  n!"            construction_sound=construction_sound,",
  n!"            wwise_transform_sound_id=wwise_transform_sound_id,",
  n!"            wwise_construction_sound_id=wwise_construction_sound_id,",
  n!"            garrison_type=garrison_type,",
  n!"            garrison_heal_rate=garrison_heal_rate,",
  n!"            garrison_repair_rate=garrison_repair_rate,",
  n!"            pile_unit=pile_unit,",
  n!"            looting_table=(",
  n!"                looting_table_1,",
  n!"                looting_table_2,",
  n!"                looting_table_3,",
  n!"                looting_table_4,",
  n!"                looting_table_5,",
  n!"                looting_table_6,",
  n!"            ),",
  n!"        )",
  n!"",
  n!"    def to_bytes(self, version: Version) -> bytes:",
  n!"        return struct.pack(BUILDING_ANNEX_FORMAT_1,",
  n!"                           self.construction_graphic_id,",
  n!"                           self.snow_graphic_id,",
  n!"                           self.destruction_graphic_id,",
  n!"                           self.destruction_rubble_graphic_id,",
  n!"                           self.researching_graphic,",
  n!"                           self.research_completed_graphic,",
  n!"                           self.adjacent_mode,",
  n!"                           self.graphics_angle,",
  n!"                           self.disappears_when_built,",
  n!"                           self.stack_unit_id,",
  n!"                           self.foundation_terrain_id,",
  n!"                           self.old_overlap_id,",
  n!"                           self.tech_id,",
  n!"                           self.can_burn,",
  n!"                           ) + \\",
  n!"            self.write_class_array(self.annexes, version) + \\",
  n!"            struct.pack(BUILDING_ANNEX_FORMAT_2,",
  n!"                        self.head_unit,",
  n!"                        self.transform_unit,",
  n!"                        self.transform_sound,",
  n!"                        self.construction_sound,",
  n!"                        self.wwise_transform_sound_id,",
  n!"                        self.wwise_construction_sound_id,",
  n!"                        self.garrison_type,",
  n!"                        self.garrison_heal_rate,",
  n!"                        self.garrison_repair_rate,",
  n!"                        self.pile_unit,",
  n!"                        *self.looting_table,",
  n!"                        )",
  n!"",
  n!"",
  n!"FORMAT = ('<bhllhhhhhbhfbfffhhhhbbhbhbbhhhhffbbhbhfbbbbbfblllbbbbbbbbbhbbfffll')",
  n!"FORMAT_LENGTH = 140",
  n!"",
  n!"FORMAT_88 = ('<bhllhhhhhbhfbfffhhhhbbhbhbbhhhhffbbhbhfbbbbbfbllbbbbbbbbbhbbfffll')",
  n!"FORMAT_LENGTH_88 = struct.calcsize(FORMAT_88)",
  n!"",
  n!"",
  n!"@dataclass(slots=True)",
  n!"class Unit(GenieClass):",
  n!"    type: int",
  n!"    id: int",
  n!"    language_dll_name: int",
  n!"    language_dll_creation: int",
  n!"    class_: int",
  n!"    standing_graphic: tuple[int, int]",
  n!"    dying_graphic: int",
  n!"    undead_graphic: int",
  n!"    undead_mode: int",
  n!"    hit_points: int",
  n!"    line_of_sight: float",
  n!"    garrison_capacity: int",
  n!"    collision_size_x: float",
  n!"    collision_size_y: float",
  n!"    collision_size_z: float",
  n!"    train_sound: int",
  n!"    damage_sound: int",
  n!"    dead_unit_id: int",
  n!"    blood_unit_id: int",
  n!"    sort_number: int",
  n!"    can_be_built_on: int",
  n!"    icon_id: int",
  n!"    hide_in_editor: int",
  n!"    old_portrait_pict: int",
  n!"    enabled: int",
  n!"    disabled: int",
  n!"    placement_side_terrain: tuple[int, int]",
  n!"    placement_terrain: tuple[int, int]",
  n!"    clearance_size: tuple[float, float]",
  n!"    hill_mode: int",
  n!"    fog_visibility: int",
  n!"    terrain_restriction: int",
  n!"    fly_mode: int",
  n!"    resource_capacity: int",
  n!"    resource_decay: float",
  n!"    blast_defense_level: int",
  n!"    combat_level: int",
  n!"    interaction_mode: int",
  n!"    minimap_mode: int",
  n!"    interface_kind: int",
  n!"    multiple_attribute_mode: float",
  n!"    minimap_color: int",
  n!"    language_dll_help: int",
  n!"    language_dll_hotkey_text: int",
  n!"    hot_key: int",
  n!"    recyclable: int",
  n!"    enable_auto_gather: int",
  n!"    create_doppelganger_on_death: int",
  n!"    resource_gather_group: int",
  n!"    occlusion_mode: int",
  n!"    obstruction_type: int",
  n!"    obstruction_class: int",
  n!"    trait: int",
  n!"    civilization: int",
  n!"    nothing: int",
  n!"    selection_effect: int",
  n!"    editor_selection_colour: int",
  n!"    outline_size_x: float",
  n!"    outline_size_y: float",
  n!"    outline_size_z: float",
  n!"    scenario_triggers_1: int",
  n!"    scenario_triggers_2: int",
  n!"    resource_storages: tuple[ResourceStorage, ResourceStorage, ResourceStorage]",
  n!"    damage_graphics: list[DamageGraphic]",
  n!"    selection_sound: int",
  n!"    dying_sound: int",
  n!"    wwise_train_sound_id: int",
  n!"    wwise_damage_sound_id: int",
  n!"    wwise_selection_sound_id: int",
  n!"    wwise_dying_sound_id: int",
  n!"    old_attack_reaction: int",
  n!"    convert_terrain: int",
  n!"    name: str",
  n!"    copy_id: int",
  n!"    base_id: int",
  n!"    speed: float | None = None",
  n!"    dead_fish: DeadFish | None = None",
  n!"    bird: Bird | None = None",
  n!"    type_50: Type50 | None = None",
  n!"    projectile: Projectile | None = None",
  n!"    creatable: Creatable | None = None",
  n!"    building: Building | None = None",
  n!"",
  n!"    @classmethod",
  n!"    def from_bytes(cls, content: ByteHandler) -> 'Unit':",
  n!"        if content.version >= Version.VER_88:",
  n!"            return cls.from_bytes_88(content)",
  n!"        return cls.from_bytes_84(content)",
  n!"",
  n!"    @classmethod",
  n!"    def from_bytes_84(cls, content: ByteHandler) -> 'Unit':",
  n!"        type_, \\",
  n!"            id_, \\",
  n!"            language_dll_name, \\",
  n!"            language_dll_creation, \\",
  n!"            class_, \\",
  n!"            standing_graphic_1, standing_graphic_2, \\",
  n!"            dying_graphic, \\",
  n!"            undead_graphic, \\",
  n!"            undead_mode, \\",
  n!"            hit_points, \\",
  n!"            line_of_sight, \\",
  n!"            garrison_capacity, \\",
  n!"            collision_size_x, \\",
  n!"            collision_size_y, \\",
  n!"            collision_size_z, \\",
  n!"            train_sound, \\",
  n!"            damage_sound, \\",
  n!"            dead_unit_id, \\",
  n!"            blood_unit_id, \\",
  n!"            sort_number, \\",
  n!"            can_be_built_on, \\",
  n!"            icon_id, \\",
  n!"            hide_in_editor, \\",
  n!"            old_portrait_pict, \\",
  n!"            enabled, \\",
  n!"            disabled, \\",
  n!"            placement_side_terrain_1, placement_side_terrain_2, \\",
  n!"            placement_terrain_1, placement_terrain_2, \\",
  n!"            clearance_size_1, clearance_size_2, \\",
  n!"            hill_mode, \\",
  n!"            fog_visibility, \\",
  n!"            terrain_restriction, \\",
  n!"            fly_mode, \\",
  n!"            resource_capacity, \\",
  n!"            resource_decay, \\",
  n!"            blast_defense_level, \\",
  n!"            combat_level, \\",
  n!"            interaction_mode, \\",
  n!"            minimap_mode, \\",
  n!"            interface_kind, \\",
  n!"            multiple_attribute_mode, \\",
  n!"            minimap_color, \\",
  n!"            language_dll_help, \\",
  n!"            language_dll_hotkey_text, \\",
  n!"            hot_key, \\",
  n!"            recyclable, \\",
  n!"            enable_auto_gather, \\",
  n!"            create_doppelganger_on_death, \\",
  n!"            resource_gather_group, \\",
  n!"            occlusion_mode, \\",
  n!"            obstruction_type, \\",
  n!"            obstruction_class, \\",
  n!"            trait, \\",
  n!"            civilization, \\",
  n!"            nothing, \\",
  n!"            selection_effect, \\",
  n!"            editor_selection_colour, \\",
  n!"            outline_size_x, \\",
  n!"            outline_size_y, \\",
  n!"            outline_size_z, \\",
  n!"            scenario_triggers_1, \\",
  n!"            scenario_triggers_2 = struct.unpack(FORMAT, content.consume_range(FORMAT_LENGTH))",
  n!"",
  n!"        resource_storages = content.read_class_array_3(ResourceStorage)",
  n!"        damage_graphic_size = content.read_int_8()",
  n!"        damage_graphics = content.read_class_array(DamageGraphic, damage_graphic_size)",
  n!"        selection_sound = content.read_int_16()",
  n!"        dying_sound = content.read_int_16()",
  n!"        wwise_train_sound_id = content.read_int_32()",
  n!"        wwise_damage_sound_id = content.read_int_32()",
  n!"        wwise_selection_sound_id = content.read_int_32()",
  n!"        wwise_dying_sound_id = content.read_int_32()",
  n!"        old_attack_reaction = content.read_int_8()",
  n!"        convert_terrain = content.read_int_8()",
  n!"        name = content.read_debug_string()",
  n!"        copy_id = content.read_int_16()",
  n!"        base_id = content.read_int_16()",
  n!"        speed = None",
  n!"        dead_fish = None",
  n!"        bird = None",
  n!"        type_50 = None",
  n!"        projectile = None",
  n!"        creatable = None",
  n!"        building = None",
  n!"        if type_ != UnitType.AoeTrees:",
  n!"            if type_ >= UnitType.Flag:",
  n!"                speed = content.read_float()",
  n!"                if type_ >= UnitType.DeadFish:",
  n!"                    dead_fish = content.read_class(DeadFish)",
  n!"                if type_ >= UnitType.Bird:",
  n!"                    bird = content.read_class(Bird)",
  n!"                if type_ >= UnitType.Combatant:",
  n!"                    type_50 = content.read_class(Type50)",
  n!"                if type_ == UnitType.Projectile:",
  n!"                    projectile = content.read_class(Projectile)",
  n!"                if type_ >= UnitType.Creatable:",
  n!"                    creatable = content.read_class(Creatable)",
  n!"                if type_ == UnitType.Building:",
  n!"                    building = content.read_class(Building)",
  n!"",
  n!"        if creatable:",
  n!"            if not creatable.train_locations:",
  n!"                creatable.train_locations = [TrainLocation(train_time=0, unit_id=-1, button_id=0, hot_key_id=16_000)]",
  n!"            creatable.train_locations[0].hot_key_id = hot_key",
  n!"",
  n!"        return cls(",
  n!"            type=type_,",
  n!"            id=id_,",
  n!"            language_dll_name=language_dll_name,",
  n!"            language_dll_creation=language_dll_creation,",
  n!"            class_=class_,",
  n!"            standing_graphic=(standing_graphic_1, standing_graphic_2),",
  n!"            dying_graphic=dying_graphic,",
  n!"            undead_graphic=undead_graphic,",
  n!"            undead_mode=undead_mode,",
  n!"            hit_points=hit_points,",
  n!"            line_of_sight=line_of_sight,",
  n!"            garrison_capacity=garrison_capacity,",
  n!"            collision_size_x=collision_size_x,",
  n!"            collision_size_y=collision_size_y,",
  n!"            collision_size_z=collision_size_z,",
  n!"            train_sound=train_sound,",
  n!"            damage_sound=damage_sound,",
  n!"            dead_unit_id=dead_unit_id,",
  n!"            blood_unit_id=blood_unit_id,",
  n!"            sort_number=sort_number,",
  n!"            can_be_built_on=can_be_built_on,",
  n!"            icon_id=icon_id,",
  n!"            hide_in_editor=hide_in_editor,",
  n!"            old_portrait_pict=old_portrait_pict,",
  n!"            enabled=enabled,",
  n!"            disabled=disabled,",
  n!"            placement_side_terrain=(placement_side_terrain_1, placement_side_terrain_2),",
  n!"            placement_terrain=(placement_terrain_1, placement_terrain_2),",
  n!"            clearance_size=(clearance_size_1, clearance_size_2),",
  n!"            hill_mode=hill_mode,",
  n!"            fog_visibility=fog_visibility,",
  n!"            terrain_restriction=terrain_restriction,",
  n!"            fly_mode=fly_mode,",
  n!"            resource_capacity=resource_capacity,",
  n!"            resource_decay=resource_decay,",
  n!"            blast_defense_level=blast_defense_level,",
  n!"            combat_level=combat_level,",
  n!"            interaction_mode=interaction_mode,",
  n!"            minimap_mode=minimap_mode,",
  n!"            interface_kind=interface_kind,",
  n!"            multiple_attribute_mode=multiple_attribute_mode,",
  n!"            minimap_color=minimap_color,",
  n!"            language_dll_help=language_dll_help,",
  n!"            language_dll_hotkey_text=language_dll_hotkey_text,",
  n!"            hot_key=hot_key,",
  n!"            recyclable=recyclable,",
  n!"            enable_auto_gather=enable_auto_gather,",
  n!"            create_doppelganger_on_death=create_doppelganger_on_death,",
  n!"            resource_gather_group=resource_gather_group,",
  n!"            occlusion_mode=occlusion_mode,",
  n!"            obstruction_type=obstruction_type,",
  n!"            obstruction_class=obstruction_class,",
  n!"            trait=trait,",
  n!"            civilization=civilization,",
  n!"            nothing=nothing,",
  n!"            selection_effect=selection_effect,",
  n!"            editor_selection_colour=editor_selection_colour,",
  n!"            outline_size_x=outline_size_x,",
  n!"            outline_size_y=outline_size_y,",
  n!"            outline_size_z=outline_size_z,",
  n!"            scenario_triggers_1=scenario_triggers_1,",
  n!"            scenario_triggers_2=scenario_triggers_2,",
  n!"            resource_storages=resource_storages,",
  n!"            damage_graphics=damage_graphics,",
  n!"            selection_sound=selection_sound,",
  n!"            dying_sound=dying_sound,",
  n!"            wwise_train_sound_id=wwise_train_sound_id,",
  n!"            wwise_damage_sound_id=wwise_damage_sound_id,",
  n!"            wwise_selection_sound_id=wwise_selection_sound_id,",
  n!"            wwise_dying_sound_id=wwise_dying_sound_id,",
  n!"            old_attack_reaction=old_attack_reaction,",
  n!"            convert_terrain=convert_terrain,",
  n!"            name=name,",
  n!"            copy_id=copy_id,",
  n!"            base_id=base_id,",
  n!"            speed=speed,",
  n!"            dead_fish=dead_fish,",
  n!"            bird=bird,",
  n!"            type_50=type_50,",
  n!"            projectile=projectile,",
  n!"            creatable=creatable,",
  n!"            building=building,",
  n!"        )",
  n!"",
  n!"    @classmethod",
  n!"    def from_bytes_88(cls, content: ByteHandler) -> 'Unit':",
  n!"        type_, \\",
  n!"            id_, \\",
  n!"            language_dll_name, \\",
  n!"            language_dll_creation, \\",
  n!"            class_, \\",
  n!"            standing_graphic_1, standing_graphic_2, \\",
  n!"            dying_graphic, \\",
  n!"            undead_graphic, \\",
  n!"            undead_mode, \\",
  n!"            hit_points, \\",
  n!"            line_of_sight, \\",
  n!"            garrison_capacity, \\",
  n!"            collision_size_x, \\",
  n!"            collision_size_y, \\",
  n!"            collision_size_z, \\",
  n!"            train_sound, \\",
  n!"            damage_sound, \\",
  n!"            dead_unit_id, \\",
  n!"            blood_unit_id, \\",
  n!"            sort_number, \\",
  n!"            can_be_built_on, \\",
  n!"            icon_id, \\",
  n!"            hide_in_editor, \\",
  n!"            old_portrait_pict, \\",
  n!"            enabled, \\",
  n!"            disabled, \\",
  n!"            placement_side_terrain_1, placement_side_terrain_2, \\",
  n!"            placement_terrain_1, placement_terrain_2, \\",
  n!"            clearance_size_1, clearance_size_2, \\",
  n!"            hill_mode, \\",
  n!"            fog_visibility, \\",
  n!"            terrain_restriction, \\",
  n!"            fly_mode, \\",
  n!"            resource_capacity, \\",
  n!"            resource_decay, \\",
  n!"            blast_defense_level, \\",
  n!"            combat_level, \\",
  n!"            interaction_mode, \\",
  n!"            minimap_mode, \\",
  n!"            interface_kind, \\",
  n!"            multiple_attribute_mode, \\",
  n!"            minimap_color, \\",
  n!"            language_dll_help, \\",
  n!"            language_dll_hotkey_text, \\",
  n!"            recyclable, \\",
  n!"            enable_auto_gather, \\",
  n!"            create_doppelganger_on_death, \\",
  n!"            resource_gather_group, \\",
  n!"            occlusion_mode, \\",
  n!"            obstruction_type, \\",
  n!"            obstruction_class, \\",
  n!"            trait, \\",
  n!"            civilization, \\",
  n!"            nothing, \\",
  n!"            selection_effect, \\",
  n!"            editor_selection_colour, \\",
  n!"            outline_size_x, \\",
  n!"            outline_size_y, \\",
  n!"            outline_size_z, \\",
  n!"            scenario_triggers_1, \\",
  n!"            scenario_triggers_2 = struct.unpack(FORMAT_88, content.consume_range(FORMAT_LENGTH_88))",
  n!"",
  n!"        hot_key = 16_000",
  n!"        resource_storages = content.read_class_array_3(ResourceStorage)",
  n!"        damage_graphic_size = content.read_int_8()",
  n!"        damage_graphics = content.read_class_array(DamageGraphic, damage_graphic_size)",
  n!"        selection_sound = content.read_int_16()",
  n!"        dying_sound = content.read_int_16()",
  n!"        wwise_train_sound_id = content.read_int_32()",
  n!"        wwise_damage_sound_id = content.read_int_32()",
  n!"        wwise_selection_sound_id = content.read_int_32()",
  n!"        wwise_dying_sound_id = content.read_int_32()",
  n!"        old_attack_reaction = content.read_int_8()",
  n!"        convert_terrain = content.read_int_8()",
  n!"        name = content.read_debug_string()",
  n!"        copy_id = content.read_int_16()",
  n!"        base_id = content.read_int_16()",
  n!"        speed = None",
  n!"        dead_fish = None",
  n!"        bird = None",
  n!"        type_50 = None",
  n!"        projectile = None",
  n!"        creatable = None",
  n!"        building = None",
  n!"        if type_ != UnitType.AoeTrees:",
  n!"            if type_ >= UnitType.Flag:",
  n!"                speed = content.read_float()",
  n!"                if type_ >= UnitType.DeadFish:",
  n!"                    dead_fish = content.read_class(DeadFish)",
  n!"                if type_ >= UnitType.Bird:",
  n!"                    bird = content.read_class(Bird)",
  n!"                if type_ >= UnitType.Combatant:",
  n!"                    type_50 = content.read_class(Type50)",
  n!"                if type_ == UnitType.Projectile:",
  n!"                    projectile = content.read_class(Projectile)",
  n!"                if type_ >= UnitType.Creatable:",
  n!"                    creatable = content.read_class(Creatable)",
  n!"                if type_ == UnitType.Building:",
  n!"                    building = content.read_class(Building)",
  n!"        if creatable and creatable.train_locations:",
  n!"            hot_key = creatable.train_locations[0].hot_key_id",
  n!"",
  n!"        return cls(",
  n!"            type=type_,",
  n!"            id=id_,",
  n!"            language_dll_name=language_dll_name,",
  n!"            language_dll_creation=language_dll_creation,",
  n!"            class_=class_,",
  n!"            standing_graphic=(standing_graphic_1, standing_graphic_2),",
  n!"            dying_graphic=dying_graphic,",
  n!"            undead_graphic=undead_graphic,",
  n!"            undead_mode=undead_mode,",
  n!"            hit_points=hit_points,",
  n!"            line_of_sight=line_of_sight,",
  n!"            garrison_capacity=garrison_capacity,",
  n!"            collision_size_x=collision_size_x,",
  n!"            collision_size_y=collision_size_y,",
  n!"            collision_size_z=collision_size_z,",
  n!"            train_sound=train_sound,",
  n!"            damage_sound=damage_sound,",
  n!"            dead_unit_id=dead_unit_id,",
  n!"            blood_unit_id=blood_unit_id,",
  n!"            sort_number=sort_number,",
  n!"            can_be_built_on=can_be_built_on,",
  n!"            icon_id=icon_id,",
  n!"            hide_in_editor=hide_in_editor,",
  n!"            old_portrait_pict=old_portrait_pict,",
  n!"            enabled=enabled,",
  n!"            disabled=disabled,",
  n!"            placement_side_terrain=(placement_side_terrain_1, placement_side_terrain_2),",
  n!"            placement_terrain=(placement_terrain_1, placement_terrain_2),",
  n!"            clearance_size=(clearance_size_1, clearance_size_2),",
  n!"            hill_mode=hill_mode,",
  n!"            fog_visibility=fog_visibility,",
  n!"            terrain_restriction=terrain_restriction,",
  n!"            fly_mode=fly_mode,",
  n!"            resource_capacity=resource_capacity,",
  n!"            resource_decay=resource_decay,",
  n!"            blast_defense_level=blast_defense_level,",
  n!"            combat_level=combat_level,",
  n!"            interaction_mode=interaction_mode,",
  n!"            minimap_mode=minimap_mode,",
  n!"            interface_kind=interface_kind,",
  n!"            multiple_attribute_mode=multiple_attribute_mode,",
  n!"            minimap_color=minimap_color,",
  n!"            language_dll_help=language_dll_help,",
  n!"            language_dll_hotkey_text=language_dll_hotkey_text,",
  n!"            hot_key=hot_key,",
  n!"            recyclable=recyclable,",
  n!"            enable_auto_gather=enable_auto_gather,",
  n!"            create_doppelganger_on_death=create_doppelganger_on_death,",
  n!"            resource_gather_group=resource_gather_group,",
  n!"            occlusion_mode=occlusion_mode,",
  n!"            obstruction_type=obstruction_type,",
  n!"            obstruction_class=obstruction_class,",
  n!"            trait=trait,",
  n!"            civilization=civilization,",
  n!"            nothing=nothing,",
  n!"            selection_effect=selection_effect,",
  n!"            editor_selection_colour=editor_selection_colour,",
  n!"            outline_size_x=outline_size_x,",
  n!"            outline_size_y=outline_size_y,",
  n!"            outline_size_z=outline_size_z,",
  n!"            scenario_triggers_1=scenario_triggers_1,",
  n!"            scenario_triggers_2=scenario_triggers_2,",
  n!"            resource_storages=resource_storages,",
  n!"            damage_graphics=damage_graphics,",
  n!"            selection_sound=selection_sound,",
  n!"            dying_sound=dying_sound,",
  n!"            wwise_train_sound_id=wwise_train_sound_id,",
  n!"            wwise_damage_sound_id=wwise_damage_sound_id,",
  n!"            wwise_selection_sound_id=wwise_selection_sound_id,",
  n!"            wwise_dying_sound_id=wwise_dying_sound_id,",
  n!"            old_attack_reaction=old_attack_reaction,",
  n!"            convert_terrain=convert_terrain,",
  n!"            name=name,",
  n!"            copy_id=copy_id,",
  n!"            base_id=base_id,",
  n!"            speed=speed,",
  n!"            dead_fish=dead_fish,",
  n!"            bird=bird,",
  n!"            type_50=type_50,",
  n!"            projectile=projectile,",
  n!"            creatable=creatable,",
  n!"            building=building,",
  n!"        )",
  n!"",
  n!"    def to_bytes(self, version: Version) -> bytes:",
  n!"        if version >= Version.VER_88:",
  n!"            return self.to_bytes_88(version)",
  n!"        return self.to_bytes_84(version)",
  n!"",
  n!"    def to_bytes_84(self, version: Version) -> bytes:",
  n!"        speed = b''",
  n!"        dead_fish = b''",
  n!"        bird = b''",
  n!"        type_50 = b''",
  n!"        projectile = b''",
  n!"        creatable = b''",
  n!"        building = b''",
  n!"        if self.type != UnitType.AoeTrees:",
  n!"            if self.type >= UnitType.Flag:",
  n!"                speed = self.write_float(self.speed) if self.speed is not None else b''",
  n!"                if self.type >= UnitType.DeadFish:",
  n!"                    dead_fish = self.write_class(self.dead_fish, version) if self.dead_fish is not None else b''",
  n!"                if self.type >= UnitType.Bird:",
  n!"                    bird = self.write_class(self.bird, version) if self.bird is not None else b''",
  n!"                if self.type >= UnitType.Combatant:",
  n!"                    type_50 = self.write_class(self.type_50, version) if self.type_50 is not None else b''",
  n!"                if self.type == UnitType.Projectile:",
  n!"                    projectile = self.write_class(self.projectile, version) if self.projectile is not None else b''",
  n!"                if self.type >= UnitType.Creatable:",
  n!"                    creatable = self.write_class(self.creatable, version) if self.creatable is not None else b''",
  n!"                if self.type == UnitType.Building:",
  n!"                    building = self.write_class(self.building, version) if self.building is not None else b''",
  n!"        return struct.pack(FORMAT,",
  n!"                           self.type,",
  n!"                           self.id,",
  n!"                           self.language_dll_name,",
  n!"                           self.language_dll_creation,",
  n!"                           self.class_,",
  n!"                           *self.standing_graphic,",
  n!"                           self.dying_graphic,",
  n!"                           self.undead_graphic,",
  n!"                           self.undead_mode,",
  n!"                           self.hit_points,",
  n!"                           self.line_of_sight,",
  n!"                           self.garrison_capacity,",
  n!"                           self.collision_size_x,",
  n!"                           self.collision_size_y,",
  n!"                           self.collision_size_z,",
  n!"                           self.train_sound,",
  n!"                           self.damage_sound,",
  n!"                           self.dead_unit_id,",
  n!"                           self.blood_unit_id,",
  n!"                           self.sort_number,",
  n!"                           self.can_be_built_on,",
  n!"                           self.icon_id,",
  n!"                           self.hide_in_editor,",
  n!"                           self.old_portrait_pict,",
  n!"                           self.enabled,",
  n!"                           self.disabled,",
  n!"                           *self.placement_side_terrain,",
  n!"                           *self.placement_terrain,",
  n!"                           *self.clearance_size,",
  n!"                           self.hill_mode,",
  n!"                           self.fog_visibility,",
  n!"                           self.terrain_restriction,",
  n!"                           self.fly_mode,",
  n!"                           self.resource_capacity,",
  n!"                           self.resource_decay,",
  n!"                           self.blast_defense_level,",
  n!"                           self.combat_level,",
  n!"                           self.interaction_mode,",
  n!"                           self.minimap_mode,",
  n!"                           self.interface_kind,",
  n!"                           self.multiple_attribute_mode,",
  n!"                           self.minimap_color,",
  n!"                           self.language_dll_help,",
  n!"                           self.language_dll_hotkey_text,",
  n!"                           self.hot_key,",
  n!"                           self.recyclable,",
  n!"                           self.enable_auto_gather,",
  n!"                           self.create_doppelganger_on_death,",
  n!"                           self.resource_gather_group,",
  n!"                           self.occlusion_mode,",
  n!"                           self.obstruction_type,",
  n!"                           self.obstruction_class,",
  n!"                           self.trait,",
  n!"                           self.civilization,",
  n!"                           self.nothing,",
  n!"                           self.selection_effect,",
  n!"                           self.editor_selection_colour,",
  n!"                           self.outline_size_x,",
  n!"                           self.outline_size_y,",
  n!"                           self.outline_size_z,",
  n!"                           self.scenario_triggers_1,",
  n!"                           self.scenario_triggers_2,",
  n!"                           ) + b''.join([",
  n!"            self.write_class_array(self.resource_storages, version),",
  n!"            self.write_int_8(len(self.damage_graphics)),",
  n!"            self.write_class_array(self.damage_graphics, version),",
  n!"            self.write_int_16(self.selection_sound),",
  n!"            self.write_int_16(self.dying_sound),",
  n!"            self.write_int_32(self.wwise_train_sound_id),",
  n!"            self.write_int_32(self.wwise_damage_sound_id),",
  n!"            self.write_int_32(self.wwise_selection_sound_id),",
  n!"            self.write_int_32(self.wwise_dying_sound_id),",
  n!"            self.write_int_8(self.old_attack_reaction),",
  n!"            self.write_int_8(self.convert_terrain),",
  n!"            self.write_debug_string(self.name),",
  n!"            self.write_int_16(self.copy_id),",
  n!"            self.write_int_16(self.base_id),",
  n!"            speed,",
  n!"            dead_fish,",
  n!"            bird,",
  n!"            type_50,",
  n!"            projectile,",
  n!"            creatable,",
  n!"            building,",
  n!"        ])",
  n!"",
  n!"    def to_bytes_88(self, version: Version) -> bytes:",
  n!"        speed = b''",
  n!"        dead_fish = b''",
  n!"        bird = b''",
  n!"        type_50 = b''",
  n!"        projectile = b''",
  n!"        creatable = b''",
  n!"        building = b''",
  n!"        if self.type != UnitType.AoeTrees:",
  n!"            if self.type >= UnitType.Flag:",
  n!"                speed = self.write_float(self.speed) if self.speed is not None else b''",
  n!"                if self.type >= UnitType.DeadFish:",
  n!"                    dead_fish = self.write_class(self.dead_fish, version) if self.dead_fish is not None else b''",
  n!"                if self.type >= UnitType.Bird:",
  n!"                    bird = self.write_class(self.bird, version) if self.bird is not None else b''",
  n!"                if self.type >= UnitType.Combatant:",
  n!"                    type_50 = self.write_class(self.type_50, version) if self.type_50 is not None else b''",
  n!"                if self.type == UnitType.Projectile:",
  n!"                    projectile = self.write_class(self.projectile, version) if self.projectile is not None else b''",
  n!"                if self.type >= UnitType.Creatable:",
  n!"                    creatable = self.write_class(self.creatable, version) if self.creatable is not None else b''",
  n!"                if self.type == UnitType.Building:",
  n!"                    building = self.write_class(self.building, version) if self.building is not None else b''",
  n!"        return struct.pack(FORMAT_88,",
  n!"                           self.type,",
  n!"                           self.id,",
  n!"                           self.language_dll_name,",
  n!"                           self.language_dll_creation,",
  n!"                           self.class_,",
  n!"                           *self.standing_graphic,",
  n!"                           self.dying_graphic,",
  n!"                           self.undead_graphic,",
  n!"                           self.undead_mode,",
  n!"                           self.hit_points,",
  n!"                           self.line_of_sight,",
  n!"                           self.garrison_capacity,",
  n!"                           self.collision_size_x,",
  n!"                           self.collision_size_y,",
  n!"                           self.collision_size_z,",
  n!"                           self.train_sound,",
  n!"                           self.damage_sound,",
  n!"                           self.dead_unit_id,",
  n!"                           self.blood_unit_id,",
  n!"                           self.sort_number,",
  n!"                           self.can_be_built_on,",
  n!"                           self.icon_id,",
  n!"                           self.hide_in_editor,",
  n!"                           self.old_portrait_pict,",
  n!"                           self.enabled,",
  n!"                           self.disabled,",
  n!"                           *self.placement_side_terrain,",
  n!"                           *self.placement_terrain,",
  n!"                           *self.clearance_size,",
  n!"                           self.hill_mode,",
  n!"                           self.fog_visibility,",
  n!"                           self.terrain_restriction,",
  n!"                           self.fly_mode,",
  n!"                           self.resource_capacity,",
  n!"                           self.resource_decay,",
  n!"                           self.blast_defense_level,",
  n!"                           self.combat_level,",
  n!"                           self.interaction_mode,",
  n!"                           self.minimap_mode,",
  n!"                           self.interface_kind,",
  n!"                           self.multiple_attribute_mode,",
  n!"                           self.minimap_color,",
  n!"                           self.language_dll_help,",
  n!"                           self.language_dll_hotkey_text,",
  n!"                           self.recyclable,",
  n!"                           self.enable_auto_gather,",
  n!"                           self.create_doppelganger_on_death,",
  n!"                           self.resource_gather_group,",
  n!"                           self.occlusion_mode,",
  n!"                           self.obstruction_type,",
  n!"                           self.obstruction_class,",
  n!"                           self.trait,",
  n!"                           self.civilization,",
  n!"                           self.nothing,",
  n!"                           self.selection_effect,",
  n!"                           self.editor_selection_colour,",
  n!"                           self.outline_size_x,",
  n!"                           self.outline_size_y,",
  n!"                           self.outline_size_z,",
  n!"                           self.scenario_triggers_1,",
  n!"                           self.scenario_triggers_2,",
  n!"                           ) + b''.join([",
  n!"            self.write_class_array(self.resource_storages, version),",
  n!"            self.write_int_8(len(self.damage_graphics)),",
  n!"            self.write_class_array(self.damage_graphics, version),",
  n!"            self.write_int_16(self.selection_sound),",
  n!"            self.write_int_16(self.dying_sound),",
  n!"            self.write_int_32(self.wwise_train_sound_id),",
  n!"            self.write_int_32(self.wwise_damage_sound_id),",
  n!"            self.write_int_32(self.wwise_selection_sound_id),",
  n!"            self.write_int_32(self.wwise_dying_sound_id),",
  n!"            self.write_int_8(self.old_attack_reaction),",
  n!"            self.write_int_8(self.convert_terrain),",
  n!"            self.write_debug_string(self.name),",
  n!"            self.write_int_16(self.copy_id),",
  n!"            self.write_int_16(self.base_id),",
  n!"            speed,",
  n!"            dead_fish,",
  n!"            bird,",
  n!"            type_50,",
  n!"            projectile,",
  n!"            creatable,",
  n!"            building,",
  n!"        ])"]

end Genie.Src
