import Verif.Py.Ast
/-!
# The text of `/repo/src/genieutils`

Line by line, as it is.  Written by `tools/gen_text.py`; `tools/check_text.py` compares it with the files.
-/

namespace Genie.Src

/-- The lines of `/repo/src/genieutils/effect.py`. -/
def text_effect : List Nat := [
  n!"from dataclasses import dataclass",
  n!"",
  n!"from genieutils.common import ByteHandler, GenieClass",
  n!"from genieutils.versions import Version",
  n!"",
  n!"",
  n!"@dataclass(slots=True)",
  n!"class EffectCommand(GenieClass):",
  n!"    type: int",
  n!"    a: int",
  n!"    b: int",
  n!"    c: int",
  n!"    d: float",
  n!"",
  n!"    @classmethod",
  n!"    def from_bytes(cls, content: ByteHandler) -> 'EffectCommand':",
  n!"        return cls(",
  n!"            type=content.read_int_8(),",
  n!"            a=content.read_int_16(),",
  n!"            b=content.read_int_16(),",
  n!"            c=content.read_int_16(),",
  n!"            d=content.read_float(),",
  n!"        )",
  n!"",
  n!"    def to_bytes(self, version: Version) -> bytes:",
  n!"        return b''.join([",
  n!"            self.write_int_8(self.type),",
  n!"            self.write_int_16(self.a),",
  n!"            self.write_int_16(self.b),",
  n!"            self.write_int_16(self.c),",
  n!"            self.write_float(self.d),",
  n!"        ])",
  n!"",
  n!"",
  n!"@dataclass(slots=True)",
  n!"class Effect(GenieClass):",
  n!"    name: str",
  n!"    effect_commands: list[EffectCommand]",
  n!"",
  n!"    @classmethod",
  n!"    def from_bytes(cls, content: ByteHandler) -> 'Effect':",
  n!"        name = content.read_debug_string()",
  n!"        effect_command_count = content.read_int_16()",
  n!"        effect_commands = content.read_class_array(EffectCommand, effect_command_count)",
  n!"        return cls(",
  n!"            name=name,",
  n!"            effect_commands=effect_commands,",
  n!"        )",
  n!"",
  n!"    def to_bytes(self, version: Version) -> bytes:",
  n!"        return b''.join([",
  n!"            self.write_debug_string(self.name),",
  n!"            self.write_int_16(len(self.effect_commands)),",
  n!"            self.write_class_array(self.effect_commands, version),",
  n!"        ])"]

/-- The lines of `/repo/src/genieutils/sound.py`. -/
def text_sound : List Nat := [
  n!"from dataclasses import dataclass",
  n!"",
  n!"from genieutils.common import ByteHandler, GenieClass",
  n!"from genieutils.versions import Version",
  n!"",
  n!"",
  n!"@dataclass(slots=True)",
  n!"class SoundItem(GenieClass):",
  n!"    filename: str",
  n!"    resource_id: int",
  n!"    probability: int",
  n!"    civilization: int",
  n!"    icon_set: int",
  n!"",
  n!"    @classmethod",
  n!"    def from_bytes(cls, content: ByteHandler) -> 'SoundItem':",
  n!"        return cls(",
  n!"            filename=content.read_debug_string(),",
  n!"            resource_id=content.read_int_32(),",
  n!"            probability=content.read_int_16(),",
  n!"            civilization=content.read_int_16(),",
  n!"            icon_set=content.read_int_16(),",
  n!"        )",
  n!"",
  n!"    def to_bytes(self, version: Version) -> bytes:",
  n!"        return b''.join([",
  n!"            self.write_debug_string(self.filename),",
  n!"            self.write_int_32(self.resource_id),",
  n!"            self.write_int_16(self.probability),",
  n!"            self.write_int_16(self.civilization),",
  n!"            self.write_int_16(self.icon_set),",
  n!"        ])",
  n!"",
  n!"",
  n!"@dataclass(slots=True)",
  n!"class Sound(GenieClass):",
  n!"    id: int",
  n!"    play_delay: int",
  n!"    cache_time: int",
  n!"    total_probability: int",
  n!"    items: list[SoundItem]",
  n!"",
  n!"    @classmethod",
  n!"    def from_bytes(cls, content: ByteHandler) -> 'Sound':",
  n!"        id_ = content.read_int_16()",
  n!"        play_delay = content.read_int_16()",
  n!"        items_size = content.read_int_16()",
  n!"        cache_time = content.read_int_32()",
  n!"        total_probability = content.read_int_16()",
  n!"        items = content.read_class_array(SoundItem, items_size)",
  n!"        return cls(",
  n!"            id=id_,",
  n!"            play_delay=play_delay,",
  n!"            cache_time=cache_time,",
  n!"            total_probability=total_probability,",
  n!"            items=items,",
  n!"        )",
  n!"",
  n!"    def to_bytes(self, version: Version) -> bytes:",
  n!"        return b''.join([",
  n!"            self.write_int_16(self.id),",
  n!"            self.write_int_16(self.play_delay),",
  n!"            self.write_int_16(len(self.items)),",
  n!"            self.write_int_32(self.cache_time),",
  n!"            self.write_int_16(self.total_probability),",
  n!"            self.write_class_array(self.items, version),",
  n!"        ])"]

/-- The lines of `/repo/src/genieutils/playercolour.py`. -/
def text_playercolour : List Nat := [
  n!"from dataclasses import dataclass",
  n!"",
  n!"from genieutils.common import ByteHandler, GenieClass",
  n!"from genieutils.versions import Version",
  n!"",
  n!"",
  n!"@dataclass(slots=True)",
  n!"class PlayerColour(GenieClass):",
  n!"    id: int",
  n!"    player_color_base: int",
  n!"    unit_outline_color: int",
  n!"    unit_selection_color_1: int",
  n!"    unit_selection_color_2: int",
  n!"    minimap_color: int",
  n!"    minimap_color_2: int",
  n!"    minimap_color_3: int",
  n!"    statistics_text: int",
  n!"",
  n!"    @classmethod",
  n!"    def from_bytes(cls, content: ByteHandler) -> 'PlayerColour':",
  n!"        return cls(",
  n!"            id=content.read_int_32(),",
  n!"            player_color_base=content.read_int_32(),",
  n!"            unit_outline_color=content.read_int_32(),",
  n!"            unit_selection_color_1=content.read_int_32(),",
  n!"            unit_selection_color_2=content.read_int_32(),",
  n!"            minimap_color=content.read_int_32(),",
  n!"            minimap_color_2=content.read_int_32(),",
  n!"            minimap_color_3=content.read_int_32(),",
  n!"            statistics_text=content.read_int_32(),",
  n!"        )",
  n!"",
  n!"    def to_bytes(self, version: Version) -> bytes:",
  n!"        return b''.join([",
  n!"            self.write_int_32(self.id),",
  n!"            self.write_int_32(self.player_color_base),",
  n!"            self.write_int_32(self.unit_outline_color),",
  n!"            self.write_int_32(self.unit_selection_color_1),",
  n!"            self.write_int_32(self.unit_selection_color_2),",
  n!"            self.write_int_32(self.minimap_color),",
  n!"            self.write_int_32(self.minimap_color_2),",
  n!"            self.write_int_32(self.minimap_color_3),",
  n!"            self.write_int_32(self.statistics_text),",
  n!"        ])"]

/-- The lines of `/repo/src/genieutils/graphic.py`. -/
def text_graphic : List Nat := [
  n!"from dataclasses import dataclass",
  n!"",
  n!"from genieutils.common import ByteHandler, GenieClass",
  n!"from genieutils.versions import Version",
  n!"",
  n!"",
  n!"@dataclass(slots=True)",
  n!"class GraphicDelta(GenieClass):",
  n!"    graphic_id: int",
  n!"    padding_1: int",
  n!"    sprite_ptr: int",
  n!"    offset_x: int",
  n!"    offset_y: int",
  n!"    display_angle: int",
  n!"    padding_2: int",
  n!"",
  n!"    @classmethod",
  n!"    def from_bytes(cls, content: ByteHandler) -> 'GraphicDelta':",
  n!"        return cls(",
  n!"            graphic_id=content.read_int_16(),",
  n!"            padding_1=content.read_int_16(),",
  n!"            sprite_ptr=content.read_int_32(),",
  n!"            offset_x=content.read_int_16(),",
  n!"            offset_y=content.read_int_16(),",
  n!"            display_angle=content.read_int_16(),",
  n!"            padding_2=content.read_int_16(),",
  n!"        )",
  n!"",
  n!"    def to_bytes(self, version: Version) -> bytes:",
  n!"        return b''.join([",
  n!"            self.write_int_16(self.graphic_id),",
  n!"            self.write_int_16(self.padding_1),",
  n!"            self.write_int_32(self.sprite_ptr),",
  n!"            self.write_int_16(self.offset_x),",
  n!"            self.write_int_16(self.offset_y),",
  n!"            self.write_int_16(self.display_angle),",
  n!"            self.write_int_16(self.padding_2),",
  n!"        ])",
  n!"",
  n!"",
  n!"@dataclass(slots=True)",
  n!"class GraphicAngleSound(GenieClass):",
  n!"    frame_num: int",
  n!"    sound_id: int",
  n!"    wwise_sound_id: int",
  n!"    frame_num_2: int",
  n!"    sound_id_2: int",
  n!"    wwise_sound_id_2: int",
  n!"    frame_num_3: int",
  n!"    sound_id_3: int",
  n!"    wwise_sound_id_3: int",
  n!"",
  n!"    @classmethod",
  n!"    def from_bytes(cls, content: ByteHandler) -> 'GraphicAngleSound':",
  n!"        return cls(",
  n!"            frame_num=content.read_int_16(),",
  n!"            sound_id=content.read_int_16(),",
  n!"            wwise_sound_id=content.read_int_32(),",
  n!"            frame_num_2=content.read_int_16(),",
  n!"            sound_id_2=content.read_int_16(),",
  n!"            wwise_sound_id_2=content.read_int_32(),",
  n!"            frame_num_3=content.read_int_16(),",
  n!"            sound_id_3=content.read_int_16(),",
  n!"            wwise_sound_id_3=content.read_int_32(),",
  n!"        )",
  n!"",
  n!"    def to_bytes(self, version: Version) -> bytes:",
  n!"        return b''.join([",
  n!"            self.write_int_16(self.frame_num),",
  n!"            self.write_int_16(self.sound_id),",
  n!"            self.write_int_32(self.wwise_sound_id),",
  n!"            self.write_int_16(self.frame_num_2),",
  n!"            self.write_int_16(self.sound_id_2),",
  n!"            self.write_int_32(self.wwise_sound_id_2),",
  n!"            self.write_int_16(self.frame_num_3),",
  n!"            self.write_int_16(self.sound_id_3),",
  n!"            self.write_int_32(self.wwise_sound_id_3),",
  n!"        ])",
  n!"",
  n!"",
  n!"@dataclass(slots=True)",
  n!"class Graphic(GenieClass):",
  n!"    name: str",
  n!"    file_name: str",
  n!"    particle_effect_name: str",
  n!"    slp: int",
  n!"    is_loaded: int",
  n!"    old_color_flag: int",
  n!"    layer: int",
  n!"    player_color: int",
  n!"    transparent_selection: int",
  n!"    coordinates: tuple[int, int, int, int]",
  n!"    sound_id: int",
  n!"    wwise_sound_id: int",
  n!"    angle_sounds_used: int",
  n!"    frame_count: int",
  n!"    angle_count: int",
  n!"    speed_multiplier: float",
  n!"    frame_duration: float",
  n!"    replay_delay: float",
  n!"    sequence_type: int",
  n!"    id: int",
  n!"    mirroring_mode: int",
  n!"    editor_flag: int",
  n!"    deltas: list[GraphicDelta]",
  n!"    angle_sounds: list[GraphicAngleSound]",
  n!"",
  n!"    @classmethod",
  n!"    def from_bytes(cls, content: ByteHandler) -> 'Graphic':",
  n!"        name = content.read_debug_string()",
  n!"        file_name = content.read_debug_string()",
  n!"        particle_effect_name = content.read_debug_string()",
  n!"        slp = content.read_int_32()",
  n!"        is_loaded = content.read_int_8()",
  n!"        old_color_flag = content.read_int_8()",
  n!"        layer = content.read_int_8()",
  n!"        player_color = content.read_int_16()",
  n!"        transparent_selection = content.read_int_8()",
  n!"        coordinates = content.read_int_16_array_4()",
  n!"        delta_count = content.read_int_16()",
  n!"        sound_id = content.read_int_16()",
  n!"        wwise_sound_id = content.read_int_32()",
  n!"        angle_sounds_used = content.read_int_8()",
  n!"        frame_count = content.read_int_16()",
  n!"        angle_count = content.read_int_16()",
  n!"        speed_multiplier = content.read_float()",
  n!"        frame_duration = content.read_float()",
  n!"        replay_delay = content.read_float()",
  n!"        sequence_type = content.read_int_8()",
  n!"        id_ = content.read_int_16()",
  n!"        mirroring_mode = content.read_int_8()",
  n!"        editor_flag = content.read_int_8()",
  n!"        deltas = content.read_class_array(GraphicDelta, delta_count)",
  n!"        angle_sounds = content.read_class_array(GraphicAngleSound, angle_count) if angle_sounds_used else []",
  n!"        return cls(",
  n!"            name=name,",
  n!"            file_name=file_name,",
  n!"            particle_effect_name=particle_effect_name,",
  n!"            slp=slp,",
  n!"            is_loaded=is_loaded,",
  n!"            old_color_flag=old_color_flag,",
  n!"            layer=layer,",
  n!"            player_color=player_color,",
  n!"            transparent_selection=transparent_selection,",
  n!"            coordinates=coordinates,",
  n!"            sound_id=sound_id,",
  n!"            wwise_sound_id=wwise_sound_id,",
  n!"            angle_sounds_used=angle_sounds_used,",
  n!"            frame_count=frame_count,",
  n!"            angle_count=angle_count,",
  n!"            speed_multiplier=speed_multiplier,",
  n!"            frame_duration=frame_duration,",
  n!"            replay_delay=replay_delay,",
  n!"            sequence_type=sequence_type,",
  n!"            id=id_,",
  n!"            mirroring_mode=mirroring_mode,",
  n!"            editor_flag=editor_flag,",
  n!"            deltas=deltas,",
  n!"            angle_sounds=angle_sounds,",
  n!"        )",
  n!"",
  n!"    def to_bytes(self, version: Version) -> bytes:",
  n!"        return b''.join([",
  n!"            self.write_debug_string(self.name),",
  n!"            self.write_debug_string(self.file_name),",
  n!"            self.write_debug_string(self.particle_effect_name),",
  n!"            self.write_int_32(self.slp),",
  n!"            self.write_int_8(self.is_loaded),",
  n!"            self.write_int_8(self.old_color_flag),",
  n!"            self.write_int_8(self.layer),",
  n!"            self.write_int_16(self.player_color),",
  n!"            self.write_int_8(self.transparent_selection),",
  n!"            self.write_int_16_array(self.coordinates),",
  n!"            self.write_int_16(len(self.deltas)),",
  n!"            self.write_int_16(self.sound_id),",
  n!"            self.write_int_32(self.wwise_sound_id),",
  n!"            self.write_int_8(self.angle_sounds_used),",
  n!"            self.write_int_16(self.frame_count),",
  n!"            self.write_int_16(self.angle_count),",
  n!"            self.write_float(self.speed_multiplier),",
  n!"            self.write_float(self.frame_duration),",
  n!"            self.write_float(self.replay_delay),",
  n!"            self.write_int_8(self.sequence_type),",
  n!"            self.write_int_16(self.id),",
  n!"            self.write_int_8(self.mirroring_mode),",
  n!"            self.write_int_8(self.editor_flag),",
  n!"            self.write_class_array(self.deltas, version),",
  n!"            self.write_class_array(self.angle_sounds, version),",
  n!"        ])"]

/-- The lines of `/repo/src/genieutils/terrainrestriction.py`. -/
def text_terrainrestriction : List Nat := [
  n!"from dataclasses import dataclass",
  n!"",
  n!"from genieutils.common import ByteHandler, GenieClass",
  n!"from genieutils.versions import Version",
  n!"",
  n!"",
  n!"@dataclass(slots=True)",
  n!"class TerrainPassGraphic(GenieClass):",
  n!"    exit_tile_sprite_id: int",
  n!"    enter_tile_sprite_id: int",
  n!"    walk_tile_sprite_id: int",
  n!"    walk_sprite_rate: int",
  n!"",
  n!"    @classmethod",
  n!"    def from_bytes(cls, content: ByteHandler) -> 'TerrainPassGraphic':",
  n!"        return cls(",
  n!"            exit_tile_sprite_id=content.read_int_32(),",
  n!"            enter_tile_sprite_id=content.read_int_32(),",
  n!"            walk_tile_sprite_id=content.read_int_32(),",
  n!"            walk_sprite_rate=content.read_int_32(),",
  n!"        )",
  n!"",
  n!"    def to_bytes(self, version: Version) -> bytes:",
  n!"        return b''.join([",
  n!"            self.write_int_32(self.exit_tile_sprite_id),",
  n!"            self.write_int_32(self.enter_tile_sprite_id),",
  n!"            self.write_int_32(self.walk_tile_sprite_id),",
  n!"            self.write_int_32(self.walk_sprite_rate),",
  n!"        ])",
  n!"",
  n!"",
  n!"@dataclass(slots=True)",
  n!"class TerrainRestriction(GenieClass):",
  n!"    passable_buildable_dmg_multiplier: list[float]",
  n!"    terrain_pass_graphics: list[TerrainPassGraphic]",
  n!"",
  n!"    @classmethod",
  n!"    def from_bytes_with_count(cls, content: ByteHandler, terrain_count: int) -> 'TerrainRestriction':",
  n!"        return cls(",
  n!"            passable_buildable_dmg_multiplier=content.read_float_array(terrain_count),",
  n!"            terrain_pass_graphics=content.read_class_array(TerrainPassGraphic, terrain_count),",
  n!"        )",
  n!"",
  n!"    def to_bytes(self, version: Version) -> bytes:",
  n!"        assert len(self.passable_buildable_dmg_multiplier) == len(self.terrain_pass_graphics)",
  n!"        return b''.join([",
  n!"            self.write_float_array(self.passable_buildable_dmg_multiplier),",
  n!"            self.write_class_array(self.terrain_pass_graphics, version),",
  n!"        ])"]

/-- The lines of `/repo/src/genieutils/terrainblock.py`. -/
def text_terrainblock : List Nat := [
  n!"from dataclasses import dataclass",
  n!"",
  n!"from genieutils.common import ByteHandler, TILE_TYPE_COUNT, TERRAIN_COUNT, GenieClass, TERRAIN_UNITS_SIZE",
  n!"from genieutils.versions import Version",
  n!"",
  n!"",
  n!"@dataclass(slots=True)",
  n!"class FrameData(GenieClass):",
  n!"    frame_count: int",
  n!"    angle_count: int",
  n!"    shape_id: int",
  n!"",
  n!"    @classmethod",
  n!"    def from_bytes(cls, content: ByteHandler) -> 'FrameData':",
  n!"        return cls(",
  n!"            frame_count=content.read_int_16(),",
  n!"            angle_count=content.read_int_16(),",
  n!"            shape_id=content.read_int_16(),",
  n!"        )",
  n!"",
  n!"    def to_bytes(self, version: Version) -> bytes:",
  n!"        return b''.join([",
  n!"            self.write_int_16(self.frame_count),",
  n!"            self.write_int_16(self.angle_count),",
  n!"            self.write_int_16(self.shape_id),",
  n!"        ])",
  n!"",
  n!"",
  n!"@dataclass(slots=True)",
  n!"class Terrain(GenieClass):",
  n!"    enabled: int",
  n!"    random: int",
  n!"    is_water: int",
  n!"    hide_in_editor: int",
  n!"    string_id: int",
  n!"    name: str",
  n!"    name_2: str",
  n!"    slp: int",
  n!"    shape_ptr: int",
  n!"    sound_id: int",
  n!"    wwise_sound_id: int",
  n!"    wwise_sound_stop_id: int",
  n!"    blend_priority: int",
  n!"    blend_type: int",
  n!"    overlay_mask_name: str",
  n!"    colors: tuple[int, int, int]",
  n!"    cliff_colors: tuple[int, int]",
  n!"    passable_terrain: int",
  n!"    impassable_terrain: int",
  n!"    is_animated: int",
  n!"    animation_frames: int",
  n!"    pause_frames: int",
  n!"    interval: float",
  n!"    pause_between_loops: float",
  n!"    frame: int",
  n!"    draw_frame: int",
  n!"    animate_last: float",
  n!"    frame_changed: int",
  n!"    drawn: int",
  n!"    frame_data: list[FrameData]",
  n!"    terrain_to_draw: int",
  n!"    terrain_dimensions: tuple[int, int]",
  n!"    terrain_unit_masked_density: list[int]",
  n!"    terrain_unit_id: list[int]",
  n!"    terrain_unit_density: list[int]",
  n!"    terrain_unit_centering: list[int]",
  n!"    number_of_terrain_units_used: int",
  n!"    phantom: int",
  n!"",
  n!"    @classmethod",
  n!"    def from_bytes(cls, content: ByteHandler) -> 'Terrain':",
  n!"        return cls(",
  n!"            enabled=content.read_int_8(),",
  n!"            random=content.read_int_8(),",
  n!"            is_water=content.read_int_8(),",
  n!"            hide_in_editor=content.read_int_8(),",
  n!"            string_id=content.read_int_32(),",
  n!"            name=content.read_debug_string(),",
  n!"            name_2=content.read_debug_string(),",
  n!"            slp=content.read_int_32(),",
  n!"            shape_ptr=content.read_int_32(),",
  n!"            sound_id=content.read_int_32(),",
  n!"            wwise_sound_id=content.read_int_32(signed=False),",
  n!"            wwise_sound_stop_id=content.read_int_32(signed=False),",
  n!"            blend_priority=content.read_int_32(),",
  n!"            blend_type=content.read_int_32(),",
  n!"            overlay_mask_name=content.read_debug_string(),",
  n!"            colors=content.read_int_8_array_3(),",
  n!"            cliff_colors=content.read_int_8_array_2(),",
  n!"            passable_terrain=content.read_int_8(),",
  n!"            impassable_terrain=content.read_int_8(),",
  n!"            is_animated=content.read_int_8(),",
  n!"            animation_frames=content.read_int_16(),",
  n!"            pause_frames=content.read_int_16(),",
  n!"            interval=content.read_float(),",
  n!"            pause_between_loops=content.read_float(),",
  n!"            frame=content.read_int_16(),",
  n!"            draw_frame=content.read_int_16(),",
  n!"            animate_last=content.read_float(),",
  n!"            frame_changed=content.read_int_8(),",
  n!"            drawn=content.read_int_8(),",
  n!"            frame_data=content.read_class_array(FrameData, TILE_TYPE_COUNT),",
  n!"            terrain_to_draw=content.read_int_16(),",
  n!"            terrain_dimensions=content.read_int_16_array_2(),",
  n!"            terrain_unit_masked_density=content.read_int_16_array(TERRAIN_UNITS_SIZE),",
  n!"            terrain_unit_id=content.read_int_16_array(TERRAIN_UNITS_SIZE),",
  n!"            terrain_unit_density=content.read_int_16_array(TERRAIN_UNITS_SIZE),",
  n!"            terrain_unit_centering=content.read_int_8_array(TERRAIN_UNITS_SIZE),",
  n!"            number_of_terrain_units_used=content.read_int_16(),",
  n!"            phantom=content.read_int_16(),",
  n!"        )",
  n!"",
  n!"    def to_bytes(self, version: Version) -> bytes:",
  n!"        return b''.join([",
  n!"            self.write_int_8(self.enabled),",
  n!"            self.write_int_8(self.random),",
  n!"            self.write_int_8(self.is_water),",
  n!"            self.write_int_8(self.hide_in_editor),",
  n!"            self.write_int_32(self.string_id),",
  n!"            self.write_debug_string(self.name),",
  n!"            self.write_debug_string(self.name_2),",
  n!"            self.write_int_32(self.slp),",
  n!"            self.write_int_32(self.shape_ptr),",
  n!"            self.write_int_32(self.sound_id),",
  n!"            self.write_int_32(self.wwise_sound_id, signed=False),",
  n!"            self.write_int_32(self.wwise_sound_stop_id, signed=False),",
  n!"            self.write_int_32(self.blend_priority),",
  n!"            self.write_int_32(self.blend_type),",
  n!"            self.write_debug_string(self.overlay_mask_name),",
  n!"            self.write_int_8_array(self.colors),",
  n!"            self.write_int_8_array(self.cliff_colors),",
  n!"            self.write_int_8(self.passable_terrain),",
  n!"            self.write_int_8(self.impassable_terrain),",
  n!"            self.write_int_8(self.is_animated),",
  n!"            self.write_int_16(self.animation_frames),",
  n!"            self.write_int_16(self.pause_frames),",
  n!"            self.write_float(self.interval),",
  n!"            self.write_float(self.pause_between_loops),",
  n!"            self.write_int_16(self.frame),",
  n!"            self.write_int_16(self.draw_frame),",
  n!"            self.write_float(self.animate_last),",
  n!"            self.write_int_8(self.frame_changed),",
  n!"            self.write_int_8(self.drawn),",
  n!"            self.write_class_array(self.frame_data, version),",
  n!"            self.write_int_16(self.terrain_to_draw),",
  n!"            self.write_int_16_array(self.terrain_dimensions),",
  n!"            self.write_int_16_array(self.terrain_unit_masked_density),",
  n!"            self.write_int_16_array(self.terrain_unit_id),",
  n!"            self.write_int_16_array(self.terrain_unit_density),",
  n!"            self.write_int_8_array(self.terrain_unit_centering),",
  n!"            self.write_int_16(self.number_of_terrain_units_used),",
  n!"            self.write_int_16(self.phantom),",
  n!"        ])",
  n!"",
  n!"",
  n!"@dataclass(slots=True)",
  n!"class TileSize(GenieClass):",
  n!"    width: int",
  n!"    height: int",
  n!"    delta_y: int",
  n!"",
  n!"    @classmethod",
  n!"    def from_bytes(cls, content: ByteHandler) -> 'TileSize':",
  n!"        return cls(",
  n!"            width=content.read_int_16(),",
  n!"            height=content.read_int_16(),",
  n!"            delta_y=content.read_int_16(),",
  n!"        )",
  n!"",
  n!"    def to_bytes(self, version: Version) -> bytes:",
  n!"        return b''.join([",
  n!"            self.write_int_16(self.width),",
  n!"            self.write_int_16(self.height),",
  n!"            self.write_int_16(self.delta_y),",
  n!"        ])",
  n!"",
  n!"",
  n!"@dataclass(slots=True)",
  n!"class TerrainBlock(GenieClass):",
  n!"    virtual_function_ptr: int",
  n!"    map_pointer: int",
  n!"    map_width: int",
  n!"    map_height: int",
  n!"    world_width: int",
  n!"    world_height: int",
  n!"    tile_sizes: list[TileSize]",
  n!"    padding_ts: int",
  n!"    terrains: list[Terrain]",
  n!"    map_min_x: float",
  n!"    map_min_y: float",
  n!"    map_max_x: float",
  n!"    map_max_y: float",
  n!"    map_max_x_plus_1: float",
  n!"    map_max_y_plus_1: float",
  n!"    terrains_used_2: int",
  n!"    borders_used: int",
  n!"    max_terrain: int",
  n!"    tile_width: int",
  n!"    tile_height: int",
  n!"    tile_half_height: int",
  n!"    tile_half_width: int",
  n!"    elev_height: int",
  n!"    cur_row: int",
  n!"    cur_col: int",
  n!"    block_beg_row: int",
  n!"    block_end_row: int",
  n!"    block_beg_col: int",
  n!"    block_end_col: int",
  n!"    search_map_ptr: int",
  n!"    search_map_rows_ptr: int",
  n!"    any_frame_change: int",
  n!"    map_visible_flag: int",
  n!"    fog_flag: int",
  n!"",
  n!"    @classmethod",
  n!"    def from_bytes(cls, content: ByteHandler) -> 'TerrainBlock':",
  n!"        return cls(",
  n!"            virtual_function_ptr=content.read_int_32(signed=False),",
  n!"            map_pointer=content.read_int_32(signed=False),",
  n!"            map_width=content.read_int_32(),",
  n!"            map_height=content.read_int_32(),",
  n!"            world_width=content.read_int_32(),",
  n!"            world_height=content.read_int_32(),",
  n!"            tile_sizes=content.read_class_array(TileSize, TILE_TYPE_COUNT),",
  n!"            padding_ts=content.read_int_16(),",
  n!"            terrains=content.read_class_array(Terrain, TERRAIN_COUNT),",
  n!"            map_min_x=content.read_float(),",
  n!"            map_min_y=content.read_float(),",
  n!"            map_max_x=content.read_float(),",
  n!"            map_max_y=content.read_float(),",
  n!"            map_max_x_plus_1=content.read_float(),",
  n!"            map_max_y_plus_1=content.read_float(),",
  n!"            terrains_used_2=content.read_int_16(),",
  n!"            borders_used=content.read_int_16(),",
  n!"            max_terrain=content.read_int_16(),",
  n!"            tile_width=content.read_int_16(),",
  n!"            tile_height=content.read_int_16(),",
  n!"            tile_half_height=content.read_int_16(),",
  n!"            tile_half_width=content.read_int_16(),",
  n!"            elev_height=content.read_int_16(),",
  n!"            cur_row=content.read_int_16(),",
  n!"            cur_col=content.read_int_16(),",
  n!"            block_beg_row=content.read_int_16(),",
  n!"            block_end_row=content.read_int_16(),",
  n!"            block_beg_col=content.read_int_16(),",
  n!"            block_end_col=content.read_int_16(),",
  n!"            search_map_ptr=content.read_int_32(signed=False),",
  n!"            search_map_rows_ptr=content.read_int_32(signed=False),",
  n!"            any_frame_change=content.read_int_8(),",
  n!"            map_visible_flag=content.read_int_8(),",
  n!"            fog_flag=content.read_int_8(),",
  n!"        )",
  n!"",
  n!"    def to_bytes(self, version: Version) -> bytes:",
  n!"        return b''.join([",
  n!"            self.write_int_32(self.virtual_function_ptr, signed=False),",
  n!"            self.write_int_32(self.map_pointer, signed=False),",
  n!"            self.write_int_32(self.map_width),",
  n!"            self.write_int_32(self.map_height),",
  n!"            self.write_int_32(self.world_width),",
  n!"            self.write_int_32(self.world_height),",
  n!"            self.write_class_array(self.tile_sizes, version),",
  n!"            self.write_int_16(self.padding_ts),",
  n!"            self.write_class_array(self.terrains, version),",
  n!"            self.write_float(self.map_min_x),",
  n!"            self.write_float(self.map_min_y),",
  n!"            self.write_float(self.map_max_x),",
  n!"            self.write_float(self.map_max_y),",
  n!"            self.write_float(self.map_max_x_plus_1),",
  n!"            self.write_float(self.map_max_y_plus_1),",
  n!"            self.write_int_16(self.terrains_used_2),",
  n!"            self.write_int_16(self.borders_used),",
  n!"            self.write_int_16(self.max_terrain),",
  n!"            self.write_int_16(self.tile_width),",
  n!"            self.write_int_16(self.tile_height),",
  n!"            self.write_int_16(self.tile_half_height),",
  n!"            self.write_int_16(self.tile_half_width),",
  n!"            self.write_int_16(self.elev_height),",
  n!"            self.write_int_16(self.cur_row),",
  n!"            self.write_int_16(self.cur_col),",
  n!"            self.write_int_16(self.block_beg_row),",
  n!"            self.write_int_16(self.block_end_row),",
  n!"            self.write_int_16(self.block_beg_col),",
  n!"            self.write_int_16(self.block_end_col),",
  n!"            self.write_int_32(self.search_map_ptr, signed=False),",
  n!"            self.write_int_32(self.search_map_rows_ptr, signed=False),",
  n!"            self.write_int_8(self.any_frame_change),",
  n!"            self.write_int_8(self.map_visible_flag),",
  n!"            self.write_int_8(self.fog_flag),",
  n!"        ])"]

/-- The lines of `/repo/src/genieutils/randommaps.py`. -/
def text_randommaps : List Nat := [
  n!"from dataclasses import dataclass",
  n!"",
  n!"from genieutils.common import ByteHandler, GenieClass",
  n!"from genieutils.versions import Version",
  n!"",
  n!"",
  n!"@dataclass(slots=True)",
  n!"class MapUnit(GenieClass):",
  n!"    unit: int",
  n!"    host_terrain: int",
  n!"    group_placing: int",
  n!"    scale_flag: int",
  n!"    padding_1: int",
  n!"    objects_per_group: int",
  n!"    fluctuation: int",
  n!"    groups_per_player: int",
  n!"    group_arena: int",
  n!"    player_id: int",
  n!"    set_place_for_all_players: int",
  n!"    min_distance_to_players: int",
  n!"    max_distance_to_players: int",
  n!"",
  n!"    @classmethod",
  n!"    def from_bytes(cls, content: ByteHandler) -> 'MapUnit':",
  n!"        return cls(",
  n!"            unit=content.read_int_32(),",
  n!"            host_terrain=content.read_int_32(),",
  n!"            group_placing=content.read_int_8(),",
  n!"            scale_flag=content.read_int_8(),",
  n!"            padding_1=content.read_int_16(),",
  n!"            objects_per_group=content.read_int_32(),",
  n!"            fluctuation=content.read_int_32(),",
  n!"            groups_per_player=content.read_int_32(),",
  n!"            group_arena=content.read_int_32(),",
  n!"            player_id=content.read_int_32(),",
  n!"            set_place_for_all_players=content.read_int_32(),",
  n!"            min_distance_to_players=content.read_int_32(),",
  n!"            max_distance_to_players=content.read_int_32(),",
  n!"        )",
  n!"",
  n!"    def to_bytes(self, version: Version) -> bytes:",
  n!"        return b''.join([",
  n!"            self.write_int_32(self.unit),",
  n!"            self.write_int_32(self.host_terrain),",
  n!"            self.write_int_8(self.group_placing),",
  n!"            self.write_int_8(self.scale_flag),",
  n!"            self.write_int_16(self.padding_1),",
  n!"            self.write_int_32(self.objects_per_group),",
  n!"            self.write_int_32(self.fluctuation),",
  n!"            self.write_int_32(self.groups_per_player),",
  n!"            self.write_int_32(self.group_arena),",
  n!"            self.write_int_32(self.player_id),",
  n!"            self.write_int_32(self.set_place_for_all_players),",
  n!"            self.write_int_32(self.min_distance_to_players),",
  n!"            self.write_int_32(self.max_distance_to_players),",
  n!"        ])",
  n!"",
  n!"",
  n!"@dataclass(slots=True)",
  n!"class MapTerrain(GenieClass):",
  n!"    proportion: int",
  n!"    terrain: int",
  n!"    clump_count: int",
  n!"    edge_spacing: int",
  n!"    placement_terrain: int",
  n!"    clumpiness: int",
  n!"",
  n!"    @classmethod",
  n!"    def from_bytes(cls, content: ByteHandler) -> 'MapTerrain':",
  n!"        return cls(",
  n!"            proportion=content.read_int_32(),",
  n!"            terrain=content.read_int_32(),",
  n!"            clump_count=content.read_int_32(),",
  n!"            edge_spacing=content.read_int_32(),",
  n!"            placement_terrain=content.read_int_32(),",
  n!"            clumpiness=content.read_int_32(),",
  n!"        )",
  n!"",
  n!"    def to_bytes(self, version: Version) -> bytes:",
  n!"        return b''.join([",
  n!"            self.write_int_32(self.proportion),",
  n!"            self.write_int_32(self.terrain),",
  n!"            self.write_int_32(self.clump_count),",
  n!"            self.write_int_32(self.edge_spacing),",
  n!"            self.write_int_32(self.placement_terrain),",
  n!"            self.write_int_32(self.clumpiness),",
  n!"        ])",
  n!"",
  n!"",
  n!"@dataclass(slots=True)",
  n!"class MapLand(GenieClass):",
  n!"    land_id: int",
  n!"    terrain: int",
  n!"    land_spacing: int",
  n!"    base_size: int",
  n!"    zone: int",
  n!"    placement_type: int",
  n!"    padding_1: int",
  n!"    base_x: int",
  n!"    base_y: int",
  n!"    land_proportion: int",
  n!"    by_player_flag: int",
  n!"    padding_2: int",
  n!"    start_area_radius: int",
  n!"    terrain_edge_fade: int",
  n!"    clumpiness: int",
  n!"",
  n!"    @classmethod",
  n!"    def from_bytes(cls, content: ByteHandler) -> 'MapLand':",
  n!"        return cls(",
  n!"            land_id=content.read_int_32(),",
  n!"            terrain=content.read_int_32(signed=False),",
  n!"            land_spacing=content.read_int_32(),",
  n!"            base_size=content.read_int_32(),",
  n!"            zone=content.read_int_8(),",
  n!"            placement_type=content.read_int_8(),",
  n!"            padding_1=content.read_int_16(),",
  n!"            base_x=content.read_int_32(),",
  n!"            base_y=content.read_int_32(),",
  n!"            land_proportion=content.read_int_8(),",
  n!"            by_player_flag=content.read_int_8(),",
  n!"            padding_2=content.read_int_16(),",
  n!"            start_area_radius=content.read_int_32(),",
  n!"            terrain_edge_fade=content.read_int_32(),",
  n!"            clumpiness=content.read_int_32(),",
  n!"        )",
  n!"",
  n!"    def to_bytes(self, version: Version) -> bytes:",
  n!"        return b''.join([",
  n!"            self.write_int_32(self.land_id),",
  n!"            self.write_int_32(self.terrain, signed=False),",
  n!"            self.write_int_32(self.land_spacing),",
  n!"            self.write_int_32(self.base_size),",
  n!"            self.write_int_8(self.zone),",
  n!"            self.write_int_8(self.placement_type),",
  n!"            self.write_int_16(self.padding_1),",
  n!"            self.write_int_32(self.base_x),",
  n!"            self.write_int_32(self.base_y),",
  n!"            self.write_int_8(self.land_proportion),",
  n!"            self.write_int_8(self.by_player_flag),",
  n!"            self.write_int_16(self.padding_2),",
  n!"            self.write_int_32(self.start_area_radius),",
  n!"            self.write_int_32(self.terrain_edge_fade),",
  n!"            self.write_int_32(self.clumpiness),",
  n!"        ])",
  n!"",
  n!"",
  n!"@dataclass(slots=True)",
  n!"class MapElevation(GenieClass):",
  n!"    proportion: int",
  n!"    terrain: int",
  n!"    clump_count: int",
  n!"    base_terrain: int",
  n!"    base_elevation: int",
  n!"    tile_spacing: int",
  n!"",
  n!"    @classmethod",
  n!"    def from_bytes(cls, content: ByteHandler) -> 'MapElevation':",
  n!"        return cls(",
  n!"            proportion=content.read_int_32(),",
  n!"            terrain=content.read_int_32(),",
  n!"            clump_count=content.read_int_32(),",
  n!"            base_terrain=content.read_int_32(),",
  n!"            base_elevation=content.read_int_32(),",
  n!"            tile_spacing=content.read_int_32(),",
  n!"        )",
  n!"",
  n!"    def to_bytes(self, version: Version) -> bytes:",
  n!"        return b''.join([",
  n!"            self.write_int_32(self.proportion),",
  n!"            self.write_int_32(self.terrain),",
  n!"            self.write_int_32(self.clump_count),",
  n!"            self.write_int_32(self.base_terrain),",
  n!"            self.write_int_32(self.base_elevation),",
  n!"            self.write_int_32(self.tile_spacing),",
  n!"        ])",
  n!"",
  n!"",
  n!"@dataclass(slots=True)",
  n!"class MapInfo(GenieClass):",
  n!"    map_id: int",
  n!"    border_south_west: int",
  n!"    border_north_west: int",
  n!"    border_north_east: int",
  n!"    border_south_east: int",
  n!"    border_usage: int",
  n!"    water_shape: int",
  n!"    base_terrain: int",
  n!"    land_coverage: int",
  n!"    unused_id: int",
  n!"    map_lands_size: int",
  n!"    map_lands_ptr: int",
  n!"    map_lands: list[MapLand]",
  n!"    map_terrains_size: int",
  n!"    map_terrains_ptr: int",
  n!"    map_terrains: list[MapTerrain]",
  n!"    map_units_size: int",
  n!"    map_units_ptr: int",
  n!"    map_units: list[MapUnit]",
  n!"    map_elevations_size: int",
  n!"    map_elevations_ptr: int",
  n!"    map_elevations: list[MapElevation]",
  n!"",
  n!"    @classmethod",
  n!"    def from_bytes(cls, content: ByteHandler) -> 'MapInfo':",
  n!"        map_id = content.read_int_32()",
  n!"        border_south_west = content.read_int_32()",
  n!"        border_north_west = content.read_int_32()",
  n!"        border_north_east = content.read_int_32()",
  n!"        border_south_east = content.read_int_32()",
  n!"        border_usage = content.read_int_32()",
  n!"        water_shape = content.read_int_32()",
  n!"        base_terrain = content.read_int_32()",
  n!"        land_coverage = content.read_int_32()",
  n!"        unused_id = content.read_int_32()",
  n!"        map_lands_size = content.read_int_32(signed=False)",
  n!"        map_lands_ptr = content.read_int_32()",
  n!"        map_lands = content.read_class_array(MapLand, map_lands_size)",
  n!"        map_terrains_size = content.read_int_32(signed=False)",
  n!"        map_terrains_ptr = content.read_int_32()",
  n!"        map_terrains = content.read_class_array(MapTerrain, map_terrains_size)",
  n!"        map_units_size = content.read_int_32(signed=False)",
  n!"        map_units_ptr = content.read_int_32()",
  n!"        map_units = content.read_class_array(MapUnit, map_units_size)",
  n!"        map_elevations_size = content.read_int_32(signed=False)",
  n!"        map_elevations_ptr = content.read_int_32()",
  n!"        map_elevations = content.read_class_array(MapElevation, map_elevations_size)",
  n!"        return cls(",
  n!"            map_id=map_id,",
  n!"            border_south_west=border_south_west,",
  n!"            border_north_west=border_north_west,",
  n!"            border_north_east=border_north_east,",
  n!"            border_south_east=border_south_east,",
  n!"            border_usage=border_usage,",
  n!"            water_shape=water_shape,",
  n!"            base_terrain=base_terrain,",
  n!"            land_coverage=land_coverage,",
  n!"            unused_id=unused_id,",
  n!"            map_lands_size=map_lands_size,",
  n!"            map_lands_ptr=map_lands_ptr,",
  n!"            map_lands=map_lands,",
  n!"            map_terrains_size=map_terrains_size,",
  n!"            map_terrains_ptr=map_terrains_ptr,",
  n!"            map_terrains=map_terrains,",
  n!"            map_units_size=map_units_size,",
  n!"            map_units_ptr=map_units_ptr,",
  n!"            map_units=map_units,",
  n!"            map_elevations_size=map_elevations_size,",
  n!"            map_elevations_ptr=map_elevations_ptr,",
  n!"            map_elevations=map_elevations,",
  n!"        )",
  n!"",
  n!"    def to_bytes(self, version: Version) -> bytes:",
  n!"        return b''.join([",
  n!"            self.write_int_32(self.map_id),",
  n!"            self.write_int_32(self.border_south_west),",
  n!"            self.write_int_32(self.border_north_west),",
  n!"            self.write_int_32(self.border_north_east),",
  n!"            self.write_int_32(self.border_south_east),",
  n!"            self.write_int_32(self.border_usage),",
  n!"            self.write_int_32(self.water_shape),",
  n!"            self.write_int_32(self.base_terrain),",
  n!"            self.write_int_32(self.land_coverage),",
  n!"            self.write_int_32(self.unused_id),",
  n!"            self.write_int_32(self.map_lands_size, signed=False),",
  n!"            self.write_int_32(self.map_lands_ptr),",
  n!"            self.write_class_array(self.map_lands, version),",
  n!"            self.write_int_32(self.map_terrains_size, signed=False),",
  n!"            self.write_int_32(self.map_terrains_ptr),",
  n!"            self.write_class_array(self.map_terrains, version),",
  n!"            self.write_int_32(self.map_units_size, signed=False),",
  n!"            self.write_int_32(self.map_units_ptr),",
  n!"            self.write_class_array(self.map_units, version),",
  n!"            self.write_int_32(self.map_elevations_size, signed=False),",
  n!"            self.write_int_32(self.map_elevations_ptr),",
  n!"            self.write_class_array(self.map_elevations, version),",
  n!"        ])",
  n!"",
  n!"",
  n!"@dataclass(slots=True)",
  n!"class RandomMaps(GenieClass):",
  n!"    random_maps_ptr: int",
  n!"    map_info_1: list[MapInfo]",
  n!"    map_info_2: list[MapInfo]",
  n!"",
  n!"    @classmethod",
  n!"    def from_bytes(cls, content: ByteHandler) -> 'RandomMaps':",
  n!"        random_map_count = content.read_int_32(signed=False)",
  n!"        random_maps_ptr = content.read_int_32()",
  n!"        map_info_1 = content.read_class_array(MapInfo, random_map_count)",
  n!"        map_info_2 = content.read_class_array(MapInfo, random_map_count)",
  n!"        return cls(",
  n!"            random_maps_ptr=random_maps_ptr,",
  n!"            map_info_1=map_info_1,",
  n!"            map_info_2=map_info_2,",
  n!"        )",
  n!"",
  n!"    def to_bytes(self, version: Version) -> bytes:",
  n!"        assert len(self.map_info_1) == len(self.map_info_2)",
  n!"        return b''.join([",
  n!"            self.write_int_32(len(self.map_info_1), signed=False),",
  n!"            self.write_int_32(self.random_maps_ptr),",
  n!"            self.write_class_array(self.map_info_1, version),",
  n!"            self.write_class_array(self.map_info_2, version),",
  n!"        ])"]

/-- The lines of `/repo/src/genieutils/tech.py`. -/
def text_tech : List Nat := [
  n!"from dataclasses import dataclass",
  n!"",
  n!"from genieutils.common import ByteHandler, GenieClass",
  n!"from genieutils.versions import Version",
  n!"",
  n!"",
  n!"@dataclass(slots=True)",
  n!"class ResearchResourceCost(GenieClass):",
  n!"    type: int",
  n!"    amount: int",
  n!"    flag: int",
  n!"",
  n!"    @classmethod",
  n!"    def from_bytes(cls, content: ByteHandler) -> 'ResearchResourceCost':",
  n!"        return cls(",
  n!"            type=content.read_int_16(),",
  n!"            amount=content.read_int_16(),",
  n!"            flag=content.read_int_8(),",
  n!"        )",
  n!"",
  n!"    def to_bytes(self, version: Version) -> bytes:",
  n!"        return b''.join([",
  n!"            self.write_int_16(self.type),",
  n!"            self.write_int_16(self.amount),",
  n!"            self.write_int_8(self.flag),",
  n!"        ])",
  n!"",
  n!"",
  n!"@dataclass(slots=True)",
  n!"class ResearchLocation(GenieClass):",
  n!"    location_id: int",
  n!"    research_time: int",
  n!"    button_id: int",
  n!"    hot_key_id: int",
  n!"",
  n!"    @classmethod",
  n!"    def from_bytes(cls, content: ByteHandler) -> 'ResearchLocation':",
  n!"        return cls(",
  n!"            location_id=content.read_int_16(),",
  n!"            research_time=content.read_int_16(),",
  n!"            button_id=content.read_int_8(),",
  n!"            hot_key_id=content.read_int_32(),",
  n!"        )",
  n!"",
  n!"    def to_bytes(self, version: Version) -> bytes:",
  n!"        return b''.join([",
  n!"            self.write_int_16(self.location_id),",
  n!"            self.write_int_16(self.research_time),",
  n!"            self.write_int_8(self.button_id),",
  n!"            self.write_int_32(self.hot_key_id),",
  n!"        ])",
  n!"",
  n!"",
  n!"@dataclass(slots=True)",
  n!"class Tech(GenieClass):",
  n!"    required_techs: tuple[int, int, int, int, int, int]",
  n!"    resource_costs: tuple[ResearchResourceCost, ResearchResourceCost, ResearchResourceCost]",
  n!"    required_tech_count: int",
  n!"    civ: int",
  n!"    full_tech_mode: int",
  n!"    language_dll_name: int",
  n!"    language_dll_description: int",
  n!"    effect_id: int",
  n!"    type: int",
  n!"    icon_id: int",
  n!"    language_dll_help: int",
  n!"    language_dll_tech_tree: int",
  n!"    name: str",
  n!"    repeatable: int",
  n!"    research_locations: list[ResearchLocation]",
  n!"",
  n!"    @classmethod",
  n!"    def from_bytes(cls, content: ByteHandler) -> 'Tech':",
  n!"        if content.version >= Version.VER_88:",
  n!"            return cls.from_bytes_88(content)",
  n!"        return cls.from_bytes_84(content)",
  n!"",
  n!"    @classmethod",
  n!"    def from_bytes_84(cls, content: ByteHandler) -> 'Tech':",
  n!"        required_techs = content.read_int_16_array_6()",
  n!"        resource_costs = content.read_class_array_3(ResearchResourceCost)",
  n!"        required_tech_count = content.read_int_16()",
  n!"        civ = content.read_int_16()",
  n!"        full_tech_mode = content.read_int_16()",
  n!"        research_location = content.read_int_16()",
  n!"        language_dll_name = content.read_int_32()",
  n!"        language_dll_description = content.read_int_32()",
  n!"        research_time = content.read_int_16()",
  n!"        effect_id = content.read_int_16()",
  n!"        type = content.read_int_16()",
  n!"        icon_id = content.read_int_16()",
  n!"        button_id = content.read_int_8()",
  n!"        language_dll_help = content.read_int_32()",
  n!"        language_dll_tech_tree = content.read_int_32()",
  n!"        hot_key = content.read_int_32()",
  n!"        name = content.read_debug_string()",
  n!"        repeatable = content.read_int_8()",
  n!"        research_locations = [ResearchLocation(",
  n!"            button_id=button_id,",
  n!"            research_time=research_time,",
  n!"            hot_key_id=hot_key,",
  n!"            location_id=research_location,",
  n!"        )]",
  n!"        return cls(",
  n!"            required_techs=required_techs,",
  n!"            resource_costs=resource_costs,",
  n!"            required_tech_count=required_tech_count,",
  n!"            civ=civ,",
  n!"            full_tech_mode=full_tech_mode,",
  n!"            language_dll_name=language_dll_name,",
  n!"            language_dll_description=language_dll_description,",
  n!"            effect_id=effect_id,",
  n!"            type=type,",
  n!"            icon_id=icon_id,",
  n!"            language_dll_help=language_dll_help,",
  n!"            language_dll_tech_tree=language_dll_tech_tree,",
  n!"            name=name,",
  n!"            repeatable=repeatable,",
  n!"            research_locations=research_locations,",
  n!"        )",
  n!"",
  n!"    @classmethod",
  n!"    def from_bytes_88(cls, content: ByteHandler) -> 'Tech':",
  n!"        required_techs = content.read_int_16_array_6()",
  n!"        resource_costs = content.read_class_array_3(ResearchResourceCost)",
  n!"        required_tech_count = content.read_int_16()",
  n!"        civ = content.read_int_16()",
  n!"        full_tech_mode = content.read_int_16()",
  n!"        language_dll_name = content.read_int_32()",
  n!"        language_dll_description = content.read_int_32()",
  n!"        effect_id = content.read_int_16()",
  n!"        type = content.read_int_16()",
  n!"        icon_id = content.read_int_16()",
  n!"        language_dll_help = content.read_int_32()",
  n!"        language_dll_tech_tree = content.read_int_32()",
  n!"        name = content.read_debug_string()",
  n!"        repeatable = content.read_int_8()",
  n!"        research_location_count = content.read_int_16()",
  n!"        research_locations = content.read_class_array(ResearchLocation, research_location_count)",
  n!"        return cls(",
  n!"            required_techs=required_techs,",
  n!"            resource_costs=resource_costs,",
  n!"            required_tech_count=required_tech_count,",
  n!"            civ=civ,",
  n!"            full_tech_mode=full_tech_mode,",
  n!"            language_dll_name=language_dll_name,",
  n!"            language_dll_description=language_dll_description,",
  n!"            effect_id=effect_id,",
  n!"            type=type,",
  n!"            icon_id=icon_id,",
  n!"            language_dll_help=language_dll_help,",
  n!"            language_dll_tech_tree=language_dll_tech_tree,",
  n!"            name=name,",
  n!"            repeatable=repeatable,",
  n!"            research_locations=research_locations,",
  n!"        )",
  n!"",
  n!"    def to_bytes(self, version: Version) -> bytes:",
  n!"        if version >= Version.VER_88:",
  n!"            return self.to_bytes_88(version)",
  n!"        return self.to_bytes_84(version)",
  n!"    def to_bytes_84(self, version: Version) -> bytes:",
  n!"        research_location = -1",
  n!"        research_time = 0",
  n!"        button_id = 0",
  n!"        hot_key = -1",
  n!"        if len(self.research_locations):",
  n!"            research_location = self.research_locations[0].location_id",
  n!"            research_time = self.research_locations[0].research_time",
  n!"            button_id = self.research_locations[0].button_id",
  n!"            hot_key = self.research_locations[0].hot_key_id",
  n!"        return b''.join([",
  n!"            self.write_int_16_array(self.required_techs),",
  n!"            self.write_class_array(self.resource_costs, version),",
  n!"            self.write_int_16(self.required_tech_count),",
  n!"            self.write_int_16(self.civ),",
  n!"            self.write_int_16(self.full_tech_mode),",
  n!"            self.write_int_16(research_location),",
  n!"            self.write_int_32(self.language_dll_name),",
  n!"            self.write_int_32(self.language_dll_description),",
  n!"            self.write_int_16(research_time),",
  n!"            self.write_int_16(self.effect_id),",
  n!"            self.write_int_16(self.type),",
  n!"            self.write_int_16(self.icon_id),",
  n!"            self.write_int_8(button_id),",
  n!"            self.write_int_32(self.language_dll_help),",
  n!"            self.write_int_32(self.language_dll_tech_tree),",
  n!"            self.write_int_32(hot_key),",
  n!"            self.write_debug_string(self.name),",
  n!"            self.write_int_8(self.repeatable),",
  n!"        ])",
  n!"",
  n!"    def to_bytes_88(self, version: Version) -> bytes:",
  n!"        return b''.join([",
  n!"            self.write_int_16_array(self.required_techs),",
  n!"            self.write_class_array(self.resource_costs, version),",
  n!"            self.write_int_16(self.required_tech_count),",
  n!"            self.write_int_16(self.civ),",
  n!"            self.write_int_16(self.full_tech_mode),",
  n!"            self.write_int_32(self.language_dll_name),",
  n!"            self.write_int_32(self.language_dll_description),",
  n!"            self.write_int_16(self.effect_id),",
  n!"            self.write_int_16(self.type),",
  n!"            self.write_int_16(self.icon_id),",
  n!"            self.write_int_32(self.language_dll_help),",
  n!"            self.write_int_32(self.language_dll_tech_tree),",
  n!"            self.write_debug_string(self.name),",
  n!"            self.write_int_8(self.repeatable),",
  n!"            self.write_int_16(len(self.research_locations)),",
  n!"            self.write_class_array(self.research_locations, version),",
  n!"        ])"]

/-- The lines of `/repo/src/genieutils/techtree.py`. -/
def text_techtree : List Nat := [
  n!"from dataclasses import dataclass",
  n!"",
  n!"from genieutils.common import ByteHandler, GenieClass",
  n!"from genieutils.versions import Version",
  n!"",
  n!"",
  n!"@dataclass(slots=True)",
  n!"class Common(GenieClass):",
  n!"    slots_used: int",
  n!"    unit_research: tuple[int, int, int, int, int, int, int, int, int, int]",
  n!"    mode: tuple[int, int, int, int, int, int, int, int, int, int]",
  n!"",
  n!"    @classmethod",
  n!"    def from_bytes(cls, content: ByteHandler) -> 'Common':",
  n!"        return cls(",
  n!"            slots_used=content.read_int_32(),",
  n!"            unit_research=content.read_int_32_array_10(),",
  n!"            mode=content.read_int_32_array_10(),",
  n!"        )",
  n!"",
  n!"    def to_bytes(self, version: Version) -> bytes:",
  n!"        return b''.join([",
  n!"            self.write_int_32(self.slots_used),",
  n!"            self.write_int_32_array(self.unit_research),",
  n!"            self.write_int_32_array(self.mode),",
  n!"        ])",
  n!"",
  n!"",
  n!"@dataclass(slots=True)",
  n!"class TechTreeAge(GenieClass):",
  n!"    id: int",
  n!"    status: int",
  n!"    buildings: list[int]",
  n!"    units: list[int]",
  n!"    techs: list[int]",
  n!"    common: Common",
  n!"    num_building_levels: int",
  n!"    buildings_per_zone: tuple[int, int, int, int, int, int, int, int, int, int]",
  n!"    group_length_per_zone: tuple[int, int, int, int, int, int, int, int, int, int]",
  n!"    max_age_length: int",
  n!"    line_mode: int",
  n!"",
  n!"    @classmethod",
  n!"    def from_bytes(cls, content: ByteHandler) -> 'TechTreeAge':",
  n!"        id_ = content.read_int_32()",
  n!"        status = content.read_int_8()",
  n!"        buildings_count = content.read_int_8()",
  n!"        buildings = content.read_int_32_array(buildings_count)",
  n!"        units_count = content.read_int_8()",
  n!"        units = content.read_int_32_array(units_count)",
  n!"        techs_count = content.read_int_8()",
  n!"        techs = content.read_int_32_array(techs_count)",
  n!"        common = content.read_class(Common)",
  n!"        num_building_levels = content.read_int_8()",
  n!"        buildings_per_zone = content.read_int_8_array_10()",
  n!"        group_length_per_zone = content.read_int_8_array_10()",
  n!"        max_age_length = content.read_int_8()",
  n!"        line_mode = content.read_int_32()",
  n!"        return cls(",
  n!"            id=id_,",
  n!"            status=status,",
  n!"            buildings=buildings,",
  n!"            units=units,",
  n!"            techs=techs,",
  n!"            common=common,",
  n!"            num_building_levels=num_building_levels,",
  n!"            buildings_per_zone=buildings_per_zone,",
  n!"            group_length_per_zone=group_length_per_zone,",
  n!"            max_age_length=max_age_length,",
  n!"            line_mode=line_mode,",
  n!"        )",
  n!"",
  n!"    def to_bytes(self, version: Version) -> bytes:",
  n!"        return b''.join([",
  n!"            self.write_int_32(self.id),",
  n!"            self.write_int_8(self.status),",
  n!"            self.write_int_8(len(self.buildings)),",
  n!"            self.write_int_32_array(self.buildings),",
  n!"            self.write_int_8(len(self.units)),",
  n!"            self.write_int_32_array(self.units),",
  n!"            self.write_int_8(len(self.techs)),",
  n!"            self.write_int_32_array(self.techs),",
  n!"            self.write_class(self.common, version),",
  n!"            self.write_int_8(self.num_building_levels),",
  n!"            self.write_int_8_array(self.buildings_per_zone),",
  n!"            self.write_int_8_array(self.group_length_per_zone),",
  n!"            self.write_int_8(self.max_age_length),",
  n!"            self.write_int_32(self.line_mode),",
  n!"        ])",
  n!"",
  n!"",
  n!"@dataclass(slots=True)",
  n!"class BuildingConnection(GenieClass):",
  n!"    id: int",
  n!"    status: int",
  n!"    buildings: list[int]",
  n!"    units: list[int]",
  n!"    techs: list[int]",
  n!"    common: Common",
  n!"    location_in_age: int",
  n!"    units_techs_total: tuple[int, int, int, int, int]",
  n!"    units_techs_first: tuple[int, int, int, int, int]",
  n!"    line_mode: int",
  n!"    enabling_research: int",
  n!"",
  n!"    @classmethod",
  n!"    def from_bytes(cls, content: ByteHandler) -> 'BuildingConnection':",
  n!"        id_ = content.read_int_32()",
  n!"        status = content.read_int_8()",
  n!"        buildings_count = content.read_int_8()",
  n!"        buildings = content.read_int_32_array(buildings_count)",
  n!"        units_count = content.read_int_8()",
  n!"        units = content.read_int_32_array(units_count)",
  n!"        techs_count = content.read_int_8()",
  n!"        techs = content.read_int_32_array(techs_count)",
  n!"        common = content.read_class(Common)",
  n!"        location_in_age = content.read_int_8()",
  n!"        units_techs_total = content.read_int_8_array_5()",
  n!"        units_techs_first = content.read_int_8_array_5()",
  n!"        line_mode = content.read_int_32()",
  n!"        enabling_research = content.read_int_32()",
  n!"        return cls(",
  n!"            id=id_,",
  n!"            status=status,",
  n!"            buildings=buildings,",
  n!"            units=units,",
  n!"            techs=techs,",
  n!"            common=common,",
  n!"            location_in_age=location_in_age,",
  n!"            units_techs_total=units_techs_total,",
  n!"            units_techs_first=units_techs_first,",
  n!"            line_mode=line_mode,",
  n!"            enabling_research=enabling_research,",
  n!"        )",
  n!"",
  n!"    def to_bytes(self, version: Version) -> bytes:",
  n!"        return b''.join([",
  n!"            self.write_int_32(self.id),",
  n!"            self.write_int_8(self.status),",
  n!"            self.write_int_8(len(self.buildings)),",
  n!"            self.write_int_32_array(self.buildings),",
  n!"            self.write_int_8(len(self.units)),",
  n!"            self.write_int_32_array(self.units),",
  n!"            self.write_int_8(len(self.techs)),",
  n!"            self.write_int_32_array(self.techs),",
  n!"            self.write_class(self.common, version),",
  n!"            self.write_int_8(self.location_in_age),",
  n!"            self.write_int_8_array(self.units_techs_total),",
  n!"            self.write_int_8_array(self.units_techs_first),",
  n!"            self.write_int_32(self.line_mode),",
  n!"            self.write_int_32(self.enabling_research),",
  n!"        ])",
  n!"",
  n!"",
  n!"@dataclass(slots=True)",
  n!"class UnitConnection(GenieClass):",
  n!"    id: int",
  n!"    status: int",
  n!"    upper_building: int",
  n!"    common: Common",
  n!"    vertical_line: int",
  n!"    units: list[int]",
  n!"    location_in_age: int",
  n!"    required_research: int",
  n!"    line_mode: int",
  n!"    enabling_research: int",
  n!"",
  n!"    @classmethod",
  n!"    def from_bytes(cls, content: ByteHandler) -> 'UnitConnection':",
  n!"        id_ = content.read_int_32()",
  n!"        status = content.read_int_8()",
  n!"        upper_building = content.read_int_32()",
  n!"        common = content.read_class(Common)",
  n!"        vertical_line = content.read_int_32()",
  n!"        units_count = content.read_int_8()",
  n!"        units = content.read_int_32_array(units_count)",
  n!"        location_in_age = content.read_int_32()",
  n!"        required_research = content.read_int_32()",
  n!"        line_mode = content.read_int_32()",
  n!"        enabling_research = content.read_int_32()",
  n!"        return cls(",
  n!"            id=id_,",
  n!"            status=status,",
  n!"            upper_building=upper_building,",
  n!"            common=common,",
  n!"            vertical_line=vertical_line,",
  n!"            units=units,",
  n!"            location_in_age=location_in_age,",
  n!"            required_research=required_research,",
  n!"            line_mode=line_mode,",
  n!"            enabling_research=enabling_research,",
  n!"        )",
  n!"",
  n!"    def to_bytes(self, version: Version) -> bytes:",
  n!"        return b''.join([",
  n!"            self.write_int_32(self.id),",
  n!"            self.write_int_8(self.status),",
  n!"            self.write_int_32(self.upper_building),",
  n!"            self.write_class(self.common, version),",
  n!"            self.write_int_32(self.vertical_line),",
  n!"            self.write_int_8(len(self.units)),",
  n!"            self.write_int_32_array(self.units),",
  n!"            self.write_int_32(self.location_in_age),",
  n!"            self.write_int_32(self.required_research),",
  n!"            self.write_int_32(self.line_mode),",
  n!"            self.write_int_32(self.enabling_research),",
  n!"        ])",
  n!"",
  n!"",
  n!"@dataclass(slots=True)",
  n!"class ResearchConnection(GenieClass):",
  n!"    id: int",
  n!"    status: int",
  n!"    upper_building: int",
  n!"    buildings: list[int]",
  n!"    units: list[int]",
  n!"    techs: list[int]",
  n!"    common: Common",
  n!"    vertical_line: int",
  n!"    location_in_age: int",
  n!"    line_mode: int",
  n!"",
  n!"    @classmethod",
  n!"    def from_bytes(cls, content: ByteHandler) -> 'ResearchConnection':",
  n!"        id_ = content.read_int_32()",
  n!"        status = content.read_int_8()",
  n!"        upper_building = content.read_int_32()",
  n!"        buildings_count = content.read_int_8()",
  n!"        buildings = content.read_int_32_array(buildings_count)",
  n!"        units_count = content.read_int_8()",
  n!"        units = content.read_int_32_array(units_count)",
  n!"        techs_count = content.read_int_8()",
  n!"        techs = content.read_int_32_array(techs_count)",
  n!"        common = content.read_class(Common)",
  n!"        vertical_line = content.read_int_32()",
  n!"        location_in_age = content.read_int_32()",
  n!"        line_mode = content.read_int_32()",
  n!"        return cls(",
  n!"            id=id_,",
  n!"            status=status,",
  n!"            upper_building=upper_building,",
  n!"            buildings=buildings,",
  n!"            units=units,",
  n!"            techs=techs,",
  n!"            common=common,",
  n!"            vertical_line=vertical_line,",
  n!"            location_in_age=location_in_age,",
  n!"            line_mode=line_mode,",
  n!"        )",
  n!"",
  n!"    def to_bytes(self, version: Version) -> bytes:",
  n!"        return b''.join([",
  n!"            self.write_int_32(self.id),",
  n!"            self.write_int_8(self.status),",
  n!"            self.write_int_32(self.upper_building),",
  n!"            self.write_int_8(len(self.buildings)),",
  n!"            self.write_int_32_array(self.buildings),",
  n!"            self.write_int_8(len(self.units)),",
  n!"            self.write_int_32_array(self.units),",
  n!"            self.write_int_8(len(self.techs)),",
  n!"            self.write_int_32_array(self.techs),",
  n!"            self.write_class(self.common, version),",
  n!"            self.write_int_32(self.vertical_line),",
  n!"            self.write_int_32(self.location_in_age),",
  n!"            self.write_int_32(self.line_mode),",
  n!"        ])",
  n!"",
  n!"",
  n!"@dataclass(slots=True)",
  n!"class TechTree(GenieClass):",
  n!"    total_unit_tech_groups: int",
  n!"    tech_tree_ages: list[TechTreeAge]",
  n!"    building_connections: list[BuildingConnection]",
  n!"    unit_connections: list[UnitConnection]",
  n!"    research_connections: list[ResearchConnection]",
  n!"",
  n!"    @classmethod",
  n!"    def from_bytes(cls, content: ByteHandler) -> 'TechTree':",
  n!"        age_count = content.read_int_8()",
  n!"        building_count = content.read_int_8()",
  n!"        unit_count = content.read_int_8()",
  n!"        research_count = content.read_int_8()",
  n!"        total_unit_tech_groups = content.read_int_32()",
  n!"        tech_tree_ages = content.read_class_array(TechTreeAge, age_count)",
  n!"        building_connections = content.read_class_array(BuildingConnection, building_count)",
  n!"        unit_connections = content.read_class_array(UnitConnection, unit_count)",
  n!"        research_connections = content.read_class_array(ResearchConnection, research_count)",
  n!"        return cls(",
  n!"            total_unit_tech_groups=total_unit_tech_groups,",
  n!"            tech_tree_ages=tech_tree_ages,",
  n!"            building_connections=building_connections,",
  n!"            unit_connections=unit_connections,",
  n!"            research_connections=research_connections,",
  n!"        )",
  n!"",
  n!"    def to_bytes(self, version: Version) -> bytes:",
  n!"        return b''.join([",
  n!"            self.write_int_8(len(self.tech_tree_ages)),",
  n!"            self.write_int_8(len(self.building_connections)),",
  n!"            self.write_int_8(len(self.unit_connections)),",
  n!"            self.write_int_8(len(self.research_connections)),",
  n!"            self.write_int_32(self.total_unit_tech_groups),",
  n!"            self.write_class_array(self.tech_tree_ages, version),",
  n!"            self.write_class_array(self.building_connections, version),",
  n!"            self.write_class_array(self.unit_connections, version),",
  n!"            self.write_class_array(self.research_connections, version),",
  n!"        ])"]

/-- The lines of `/repo/src/genieutils/unitheaders.py`. -/
def text_unitheaders : List Nat := [
  n!"from dataclasses import dataclass",
  n!"",
  n!"from genieutils.common import ByteHandler, GenieClass",
  n!"from genieutils.task import Task",
  n!"from genieutils.versions import Version",
  n!"",
  n!"",
  n!"@dataclass(slots=True)",
  n!"class UnitHeaders(GenieClass):",
  n!"    exists: int",
  n!"    task_list: list[Task] | None = None",
  n!"",
  n!"    @classmethod",
  n!"    def from_bytes(cls, content: ByteHandler) -> 'UnitHeaders':",
  n!"        exists = content.read_int_8()",
  n!"        task_list = None",
  n!"        if exists:",
  n!"            task_count = content.read_int_16()",
  n!"            task_list = content.read_class_array(Task, task_count)",
  n!"        return cls(",
  n!"            exists=exists,",
  n!"            task_list=task_list,",
  n!"        )",
  n!"",
  n!"    def to_bytes(self, version: Version) -> bytes:",
  n!"        return b''.join([",
  n!"            self.write_int_8(self.exists),",
  n!"            self.write_int_16(len(self.task_list)) if self.exists and self.task_list is not None else b'',",
  n!"            self.write_class_array(self.task_list, version) if self.exists and self.task_list is not None else b'',",
  n!"        ])"]

/-- The lines of `/repo/src/genieutils/civ.py`. -/
def text_civ : List Nat := [
  n!"from dataclasses import dataclass",
  n!"",
  n!"from genieutils.common import ByteHandler, GenieClass",
  n!"from genieutils.unit import Unit",
  n!"from genieutils.versions import Version",
  n!"",
  n!"",
  n!"@dataclass(slots=True)",
  n!"class Civ(GenieClass):",
  n!"    player_type: int",
  n!"    name: str",
  n!"    tech_tree_id: int",
  n!"    team_bonus_id: int",
  n!"    resources: list[float]",
  n!"    icon_set: int",
  n!"    units: list[Unit | None]",
  n!"",
  n!"    @classmethod",
  n!"    def from_bytes(cls, content: ByteHandler) -> 'Civ':",
  n!"        player_type = content.read_int_8()",
  n!"        name = content.read_debug_string()",
  n!"        resources_size = content.read_int_16()",
  n!"        tech_tree_id = content.read_int_16()",
  n!"        team_bonus_id = content.read_int_16()",
  n!"        resources = content.read_float_array(resources_size)",
  n!"        icon_set = content.read_int_8()",
  n!"        units_size = content.read_int_16()",
  n!"        unit_pointers = content.read_int_32_array(units_size)",
  n!"        units = content.read_class_array_with_pointers(Unit, units_size, unit_pointers)",
  n!"        return cls(",
  n!"            player_type=player_type,",
  n!"            name=name,",
  n!"            tech_tree_id=tech_tree_id,",
  n!"            team_bonus_id=team_bonus_id,",
  n!"            resources=resources,",
  n!"            icon_set=icon_set,",
  n!"            units=units,",
  n!"        )",
  n!"",
  n!"    @property",
  n!"    def unit_pointers(self) -> list[int]:",
  n!"        return [(0 if u is None else 1) for u in self.units]",
  n!"",
  n!"    def to_bytes(self, version: Version) -> bytes:",
  n!"        return b''.join([",
  n!"            self.write_int_8(self.player_type),",
  n!"            self.write_debug_string(self.name),",
  n!"            self.write_int_16(len(self.resources)),",
  n!"            self.write_int_16(self.tech_tree_id),",
  n!"            self.write_int_16(self.team_bonus_id),",
  n!"            self.write_float_array(self.resources),",
  n!"            self.write_int_8(self.icon_set),",
  n!"            self.write_int_16(len(self.units)),",
  n!"            self.write_int_32_array(self.unit_pointers),",
  n!"            self.write_class_array(self.units, version),",
  n!"        ])"]

/-- The lines of `/repo/src/genieutils/datfile.py`. -/
def text_datfile : List Nat := [
  n!"import zlib",
  n!"from dataclasses import dataclass",
  n!"from os import PathLike",
  n!"from pathlib import Path",
  n!"",
  n!"from genieutils.civ import Civ",
  n!"from genieutils.common import ByteHandler, GenieClass",
  n!"from genieutils.effect import Effect",
  n!"from genieutils.graphic import Graphic",
  n!"from genieutils.playercolour import PlayerColour",
  n!"from genieutils.randommaps import RandomMaps",
  n!"from genieutils.sound import Sound",
  n!"from genieutils.tech import Tech",
  n!"from genieutils.techtree import TechTree",
  n!"from genieutils.terrainblock import TerrainBlock",
  n!"from genieutils.terrainrestriction import TerrainRestriction",
  n!"from genieutils.unitheaders import UnitHeaders",
  n!"from genieutils.versions import Version",
  n!"",
  n!"",
  n!"@dataclass(slots=True)",
  n!"class DatFile(GenieClass):",
  n!"    version: str",
  n!"    float_ptr_terrain_tables: list[int]",
  n!"    terrain_pass_graphic_pointers: list[int]",
  n!"    terrain_restrictions: list[TerrainRestriction]",
  n!"    player_colours: list[PlayerColour]",
  n!"    sounds: list[Sound]",
  n!"    graphics: list[Graphic | None]",
  n!"    terrain_block: TerrainBlock",
  n!"    random_maps: RandomMaps",
  n!"    effects: list[Effect]",
  n!"    unit_headers: list[UnitHeaders]",
  n!"    civs: list[Civ]",
  n!"    techs: list[Tech]",
  n!"    time_slice: int",
  n!"    unit_kill_rate: int",
  n!"    unit_kill_total: int",
  n!"    unit_hit_point_rate: int",
  n!"    unit_hit_point_total: int",
  n!"    razing_kill_rate: int",
  n!"    razing_kill_total: int",
  n!"    tech_tree: TechTree",
  n!"",
  n!"    @classmethod",
  n!"    def parse(cls, input_file: Path | PathLike | str) -> 'DatFile':",
  n!"        content = Path(input_file).read_bytes()",
  n!"        data = zlib.decompress(content, wbits=-15)",
  n!"        byte_handler = ByteHandler(memoryview(data))",
  n!"        return cls.from_bytes(byte_handler)",
  n!"",
  n!"    def save(self, target_file: Path | PathLike | str):",
  n!"        uncompressed = self.to_bytes()",
  n!"        compressed = zlib.compress(uncompressed, level=-1, wbits=-15)",
  n!"        Path(target_file).write_bytes(compressed)",
  n!"",
  n!"    @classmethod",
  n!"    def from_bytes(cls, content: ByteHandler) -> 'DatFile':",
  n!"        version = content.read_string(8)",
  n!"        content.version = Version(version)",
  n!"        terrain_restrictions_size = content.read_int_16()",
  n!"        terrains_used_1 = content.read_int_16()",
  n!"        float_ptr_terrain_tables = content.read_int_32_array(terrain_restrictions_size)",
  n!"        terrain_pass_graphic_pointers = content.read_int_32_array(terrain_restrictions_size)",
  n!"        terrain_restrictions = content.read_class_array_with_param(TerrainRestriction, terrain_restrictions_size,",
  n!"                                                                   terrains_used_1)",
  n!"        player_colours_size = content.read_int_16()",
  n!"        player_colours = content.read_class_array(PlayerColour, player_colours_size)",
  n!"        sounds_size = content.read_int_16()",
  n!"        sounds = content.read_class_array(Sound, sounds_size)",
  n!"        graphics_size = content.read_int_16()",
  n!"        graphic_pointers = content.read_int_32_array(graphics_size)",
  n!"        graphics = content.read_class_array_with_pointers(Graphic, graphics_size, graphic_pointers)",
  n!"        terrain_block = content.read_class(TerrainBlock)",
  n!"        random_maps = content.read_class(RandomMaps)",
  n!"        effects_size = content.read_int_32()",
  n!"        effects = content.read_class_array(Effect, effects_size)",
  n!"        unit_headers_size = content.read_int_32()",
  n!"        unit_headers = content.read_class_array(UnitHeaders, unit_headers_size)",
  n!"        civs_size = content.read_int_16()",
  n!"        civs = content.read_class_array(Civ, civs_size)",
  n!"        techs_size = content.read_int_16()",
  n!"        techs = content.read_class_array(Tech, techs_size)",
  n!"        time_slice = content.read_int_32()",
  n!"        unit_kill_rate = content.read_int_32()",
  n!"        unit_kill_total = content.read_int_32()",
  n!"        unit_hit_point_rate = content.read_int_32()",
  n!"        unit_hit_point_total = content.read_int_32()",
  n!"        razing_kill_rate = content.read_int_32()",
  n!"        razing_kill_total = content.read_int_32()",
  n!"        tech_tree = content.read_class(TechTree)",
  n!"        return cls(",
  n!"            version=version,",
  n!"            float_ptr_terrain_tables=float_ptr_terrain_tables,",
  n!"            terrain_pass_graphic_pointers=terrain_pass_graphic_pointers,",
  n!"            terrain_restrictions=terrain_restrictions,",
  n!"            player_colours=player_colours,",
  n!"            sounds=sounds,",
  n!"            graphics=graphics,",
  n!"            terrain_block=terrain_block,",
  n!"            random_maps=random_maps,",
  n!"            effects=effects,",
  n!"            unit_headers=unit_headers,",
  n!"            civs=civs,",
  n!"            techs=techs,",
  n!"            time_slice=time_slice,",
  n!"            unit_kill_rate=unit_kill_rate,",
  n!"            unit_kill_total=unit_kill_total,",
  n!"            unit_hit_point_rate=unit_hit_point_rate,",
  n!"            unit_hit_point_total=unit_hit_point_total,",
  n!"            razing_kill_rate=razing_kill_rate,",
  n!"            razing_kill_total=razing_kill_total,",
  n!"            tech_tree=tech_tree,",
  n!"        )",
  n!"",
  n!"    @property",
  n!"    def graphic_pointers(self) -> list[int]:",
  n!"        return [(0 if g is None else 1) for g in self.graphics]",
  n!"",
  n!"    def to_bytes(self, version: Version = Version.UNDEFINED) -> bytes:",
  n!"        version = Version(self.version)",
  n!"        terrain_restrictions_size = len(self.terrain_restrictions)",
  n!"        assert len(self.float_ptr_terrain_tables) == len(self.terrain_pass_graphic_pointers) == terrain_restrictions_size",
  n!"        terrains_used = 0",
  n!"        if self.terrain_restrictions:",
  n!"            terrains_used = len(self.terrain_restrictions[0].passable_buildable_dmg_multiplier)",
  n!"",
  n!"        return b''.join([",
  n!"            self.write_string(8, self.version),",
  n!"            self.write_int_16(terrain_restrictions_size),",
  n!"            self.write_int_16(terrains_used),",
  n!"            self.write_int_32_array(self.float_ptr_terrain_tables),",
  n!"            self.write_int_32_array(self.terrain_pass_graphic_pointers),",
  n!"            self.write_class_array(self.terrain_restrictions, version),",
  n!"            self.write_int_16(len(self.player_colours)),",
  n!"            self.write_class_array(self.player_colours, version),",
  n!"            self.write_int_16(len(self.sounds)),",
  n!"            self.write_class_array(self.sounds, version),",
  n!"            self.write_int_16(len(self.graphics)),",
  n!"            self.write_int_32_array(self.graphic_pointers),",
  n!"            self.write_class_array(self.graphics, version),",
  n!"            self.write_class(self.terrain_block, version),",
  n!"            self.write_class(self.random_maps, version),",
  n!"            self.write_int_32(len(self.effects)),",
  n!"            self.write_class_array(self.effects, version),",
  n!"            self.write_int_32(len(self.unit_headers)),",
  n!"            self.write_class_array(self.unit_headers, version),",
  n!"            self.write_int_16(len(self.civs)),",
  n!"            self.write_class_array(self.civs, version),",
  n!"            self.write_int_16(len(self.techs)),",
  n!"            self.write_class_array(self.techs, version),",
  n!"            self.write_int_32(self.time_slice),",
  n!"            self.write_int_32(self.unit_kill_rate),",
  n!"            self.write_int_32(self.unit_kill_total),",
  n!"            self.write_int_32(self.unit_hit_point_rate),",
  n!"            self.write_int_32(self.unit_hit_point_total),",
  n!"            self.write_int_32(self.razing_kill_rate),",
  n!"            self.write_int_32(self.razing_kill_total),",
  n!"            self.write_class(self.tech_tree, version),",
  n!"        ])"]

end Genie.Src
