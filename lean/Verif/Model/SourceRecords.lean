import Verif.Py.Ast
/-!
# The source code of `/repo/src/genieutils`

Modules: `effect.py`, `sound.py`, `playercolour.py`, `graphic.py`, `terrainrestriction.py`, `terrainblock.py`, `randommaps.py`, `tech.py`, `techtree.py`, `unitheaders.py`, `civ.py`, `datfile.py`.  Written by `tools/gen_source.py` from the syntax trees that Python's parser gives; annotations and docstrings have no effect and are
left out; `DatFile.parse`, `DatFile.save` and `scripts.py` are in `Verif/Model/SourceIo.lean`.
-/

namespace Genie.Src

/-- `EffectCommand.from_bytes` — `/repo/src/genieutils/effect.py:16-23`. -/
def EffectCommand.src_from_bytes : Fun where
  name := n!"from_bytes"
  kind := .classMethod
  params := [(n!"cls", .argNil), (n!"content", .argNil)]
  body :=
    (.ret (.call (.name n!"cls") (.kw n!"type" (.call (.attr (.name n!"content") n!"read_int_8") .argNil) (.kw n!"a" (.call (.attr (.name n!"content") n!"read_int_16") .argNil) (.kw n!"b" (.call (.attr (.name n!"content") n!"read_int_16") .argNil) (.kw n!"c" (.call (.attr (.name n!"content") n!"read_int_16") .argNil) (.kw n!"d" (.call (.attr (.name n!"content") n!"read_float") .argNil) .argNil)))))))

/-- `EffectCommand.to_bytes` — `/repo/src/genieutils/effect.py:25-32`. -/
def EffectCommand.src_to_bytes : Fun where
  name := n!"to_bytes"
  kind := .method
  params := [(n!"self", .argNil), (n!"version", .argNil)]
  body :=
    (.ret (.call (.attr (.bytes []) n!"join") (.arg (.list (.arg (.call (.attr (.name n!"self") n!"write_int_8") (.arg (.attr (.name n!"self") n!"type") .argNil)) (.arg (.call (.attr (.name n!"self") n!"write_int_16") (.arg (.attr (.name n!"self") n!"a") .argNil)) (.arg (.call (.attr (.name n!"self") n!"write_int_16") (.arg (.attr (.name n!"self") n!"b") .argNil)) (.arg (.call (.attr (.name n!"self") n!"write_int_16") (.arg (.attr (.name n!"self") n!"c") .argNil)) (.arg (.call (.attr (.name n!"self") n!"write_float") (.arg (.attr (.name n!"self") n!"d") .argNil)) .argNil)))))) .argNil)))

/-- `class EffectCommand` — `/repo/src/genieutils/effect.py:8-32`. -/
def EffectCommand.src : Cls where
  name := n!"EffectCommand"
  module := n!"effect"
  base := n!"GenieClass"
  dataclass := true
  fields := [(n!"type", .argNil), (n!"a", .argNil), (n!"b", .argNil), (n!"c", .argNil), (n!"d", .argNil)]
  vars := []
  funs := [EffectCommand.src_from_bytes, EffectCommand.src_to_bytes]

/-- `Effect.from_bytes` — `/repo/src/genieutils/effect.py:41-48`. -/
def Effect.src_from_bytes : Fun where
  name := n!"from_bytes"
  kind := .classMethod
  params := [(n!"cls", .argNil), (n!"content", .argNil)]
  body :=
    (.assign n!"name" (.call (.attr (.name n!"content") n!"read_debug_string") .argNil)
    (.assign n!"effect_command_count" (.call (.attr (.name n!"content") n!"read_int_16") .argNil)
    (.assign n!"effect_commands" (.call (.attr (.name n!"content") n!"read_class_array") (.arg (.name n!"EffectCommand") (.arg (.name n!"effect_command_count") .argNil)))
    (.ret (.call (.name n!"cls") (.kw n!"name" (.name n!"name") (.kw n!"effect_commands" (.name n!"effect_commands") .argNil)))))))

/-- `Effect.to_bytes` — `/repo/src/genieutils/effect.py:50-55`. -/
def Effect.src_to_bytes : Fun where
  name := n!"to_bytes"
  kind := .method
  params := [(n!"self", .argNil), (n!"version", .argNil)]
  body :=
    (.ret (.call (.attr (.bytes []) n!"join") (.arg (.list (.arg (.call (.attr (.name n!"self") n!"write_debug_string") (.arg (.attr (.name n!"self") n!"name") .argNil)) (.arg (.call (.attr (.name n!"self") n!"write_int_16") (.arg (.call (.name n!"len") (.arg (.attr (.name n!"self") n!"effect_commands") .argNil)) .argNil)) (.arg (.call (.attr (.name n!"self") n!"write_class_array") (.arg (.attr (.name n!"self") n!"effect_commands") (.arg (.name n!"version") .argNil))) .argNil)))) .argNil)))

/-- `class Effect` — `/repo/src/genieutils/effect.py:36-55`. -/
def Effect.src : Cls where
  name := n!"Effect"
  module := n!"effect"
  base := n!"GenieClass"
  dataclass := true
  fields := [(n!"name", .argNil), (n!"effect_commands", .argNil)]
  vars := []
  funs := [Effect.src_from_bytes, Effect.src_to_bytes]

/-- The names of the module `/repo/src/genieutils/effect.py`. -/
def module_effect : Module where
  name := n!"effect"
  globals := [
    (n!"dataclass", .lib),
    (n!"ByteHandler", .from_ n!"common"),
    (n!"GenieClass", .from_ n!"common"),
    (n!"Version", .from_ n!"versions"),
    (n!"EffectCommand", .cls),
    (n!"Effect", .cls)]

/-- `SoundItem.from_bytes` — `/repo/src/genieutils/sound.py:16-23`. -/
def SoundItem.src_from_bytes : Fun where
  name := n!"from_bytes"
  kind := .classMethod
  params := [(n!"cls", .argNil), (n!"content", .argNil)]
  body :=
    (.ret (.call (.name n!"cls") (.kw n!"filename" (.call (.attr (.name n!"content") n!"read_debug_string") .argNil) (.kw n!"resource_id" (.call (.attr (.name n!"content") n!"read_int_32") .argNil) (.kw n!"probability" (.call (.attr (.name n!"content") n!"read_int_16") .argNil) (.kw n!"civilization" (.call (.attr (.name n!"content") n!"read_int_16") .argNil) (.kw n!"icon_set" (.call (.attr (.name n!"content") n!"read_int_16") .argNil) .argNil)))))))

/-- `SoundItem.to_bytes` — `/repo/src/genieutils/sound.py:25-32`. -/
def SoundItem.src_to_bytes : Fun where
  name := n!"to_bytes"
  kind := .method
  params := [(n!"self", .argNil), (n!"version", .argNil)]
  body :=
    (.ret (.call (.attr (.bytes []) n!"join") (.arg (.list (.arg (.call (.attr (.name n!"self") n!"write_debug_string") (.arg (.attr (.name n!"self") n!"filename") .argNil)) (.arg (.call (.attr (.name n!"self") n!"write_int_32") (.arg (.attr (.name n!"self") n!"resource_id") .argNil)) (.arg (.call (.attr (.name n!"self") n!"write_int_16") (.arg (.attr (.name n!"self") n!"probability") .argNil)) (.arg (.call (.attr (.name n!"self") n!"write_int_16") (.arg (.attr (.name n!"self") n!"civilization") .argNil)) (.arg (.call (.attr (.name n!"self") n!"write_int_16") (.arg (.attr (.name n!"self") n!"icon_set") .argNil)) .argNil)))))) .argNil)))

/-- `class SoundItem` — `/repo/src/genieutils/sound.py:8-32`. -/
def SoundItem.src : Cls where
  name := n!"SoundItem"
  module := n!"sound"
  base := n!"GenieClass"
  dataclass := true
  fields := [(n!"filename", .argNil), (n!"resource_id", .argNil), (n!"probability", .argNil), (n!"civilization", .argNil), (n!"icon_set", .argNil)]
  vars := []
  funs := [SoundItem.src_from_bytes, SoundItem.src_to_bytes]

/-- `Sound.from_bytes` — `/repo/src/genieutils/sound.py:44-57`. -/
def Sound.src_from_bytes : Fun where
  name := n!"from_bytes"
  kind := .classMethod
  params := [(n!"cls", .argNil), (n!"content", .argNil)]
  body :=
    (.assign n!"id_" (.call (.attr (.name n!"content") n!"read_int_16") .argNil)
    (.assign n!"play_delay" (.call (.attr (.name n!"content") n!"read_int_16") .argNil)
    (.assign n!"items_size" (.call (.attr (.name n!"content") n!"read_int_16") .argNil)
    (.assign n!"cache_time" (.call (.attr (.name n!"content") n!"read_int_32") .argNil)
    (.assign n!"total_probability" (.call (.attr (.name n!"content") n!"read_int_16") .argNil)
    (.assign n!"items" (.call (.attr (.name n!"content") n!"read_class_array") (.arg (.name n!"SoundItem") (.arg (.name n!"items_size") .argNil)))
    (.ret (.call (.name n!"cls") (.kw n!"id" (.name n!"id_") (.kw n!"play_delay" (.name n!"play_delay") (.kw n!"cache_time" (.name n!"cache_time") (.kw n!"total_probability" (.name n!"total_probability") (.kw n!"items" (.name n!"items") .argNil)))))))))))))

/-- `Sound.to_bytes` — `/repo/src/genieutils/sound.py:59-67`. -/
def Sound.src_to_bytes : Fun where
  name := n!"to_bytes"
  kind := .method
  params := [(n!"self", .argNil), (n!"version", .argNil)]
  body :=
    (.ret (.call (.attr (.bytes []) n!"join") (.arg (.list (.arg (.call (.attr (.name n!"self") n!"write_int_16") (.arg (.attr (.name n!"self") n!"id") .argNil)) (.arg (.call (.attr (.name n!"self") n!"write_int_16") (.arg (.attr (.name n!"self") n!"play_delay") .argNil)) (.arg (.call (.attr (.name n!"self") n!"write_int_16") (.arg (.call (.name n!"len") (.arg (.attr (.name n!"self") n!"items") .argNil)) .argNil)) (.arg (.call (.attr (.name n!"self") n!"write_int_32") (.arg (.attr (.name n!"self") n!"cache_time") .argNil)) (.arg (.call (.attr (.name n!"self") n!"write_int_16") (.arg (.attr (.name n!"self") n!"total_probability") .argNil)) (.arg (.call (.attr (.name n!"self") n!"write_class_array") (.arg (.attr (.name n!"self") n!"items") (.arg (.name n!"version") .argNil))) .argNil))))))) .argNil)))

/-- `class Sound` — `/repo/src/genieutils/sound.py:36-67`. -/
def Sound.src : Cls where
  name := n!"Sound"
  module := n!"sound"
  base := n!"GenieClass"
  dataclass := true
  fields := [(n!"id", .argNil), (n!"play_delay", .argNil), (n!"cache_time", .argNil), (n!"total_probability", .argNil), (n!"items", .argNil)]
  vars := []
  funs := [Sound.src_from_bytes, Sound.src_to_bytes]

/-- The names of the module `/repo/src/genieutils/sound.py`. -/
def module_sound : Module where
  name := n!"sound"
  globals := [
    (n!"dataclass", .lib),
    (n!"ByteHandler", .from_ n!"common"),
    (n!"GenieClass", .from_ n!"common"),
    (n!"Version", .from_ n!"versions"),
    (n!"SoundItem", .cls),
    (n!"Sound", .cls)]

/-- `PlayerColour.from_bytes` — `/repo/src/genieutils/playercolour.py:20-31`. -/
def PlayerColour.src_from_bytes : Fun where
  name := n!"from_bytes"
  kind := .classMethod
  params := [(n!"cls", .argNil), (n!"content", .argNil)]
  body :=
    (.ret (.call (.name n!"cls") (.kw n!"id" (.call (.attr (.name n!"content") n!"read_int_32") .argNil) (.kw n!"player_color_base" (.call (.attr (.name n!"content") n!"read_int_32") .argNil) (.kw n!"unit_outline_color" (.call (.attr (.name n!"content") n!"read_int_32") .argNil) (.kw n!"unit_selection_color_1" (.call (.attr (.name n!"content") n!"read_int_32") .argNil) (.kw n!"unit_selection_color_2" (.call (.attr (.name n!"content") n!"read_int_32") .argNil) (.kw n!"minimap_color" (.call (.attr (.name n!"content") n!"read_int_32") .argNil) (.kw n!"minimap_color_2" (.call (.attr (.name n!"content") n!"read_int_32") .argNil) (.kw n!"minimap_color_3" (.call (.attr (.name n!"content") n!"read_int_32") .argNil) (.kw n!"statistics_text" (.call (.attr (.name n!"content") n!"read_int_32") .argNil) .argNil)))))))))))

/-- `PlayerColour.to_bytes` — `/repo/src/genieutils/playercolour.py:33-44`. -/
def PlayerColour.src_to_bytes : Fun where
  name := n!"to_bytes"
  kind := .method
  params := [(n!"self", .argNil), (n!"version", .argNil)]
  body :=
    (.ret (.call (.attr (.bytes []) n!"join") (.arg (.list (.arg (.call (.attr (.name n!"self") n!"write_int_32") (.arg (.attr (.name n!"self") n!"id") .argNil)) (.arg (.call (.attr (.name n!"self") n!"write_int_32") (.arg (.attr (.name n!"self") n!"player_color_base") .argNil)) (.arg (.call (.attr (.name n!"self") n!"write_int_32") (.arg (.attr (.name n!"self") n!"unit_outline_color") .argNil)) (.arg (.call (.attr (.name n!"self") n!"write_int_32") (.arg (.attr (.name n!"self") n!"unit_selection_color_1") .argNil)) (.arg (.call (.attr (.name n!"self") n!"write_int_32") (.arg (.attr (.name n!"self") n!"unit_selection_color_2") .argNil)) (.arg (.call (.attr (.name n!"self") n!"write_int_32") (.arg (.attr (.name n!"self") n!"minimap_color") .argNil)) (.arg (.call (.attr (.name n!"self") n!"write_int_32") (.arg (.attr (.name n!"self") n!"minimap_color_2") .argNil)) (.arg (.call (.attr (.name n!"self") n!"write_int_32") (.arg (.attr (.name n!"self") n!"minimap_color_3") .argNil)) (.arg (.call (.attr (.name n!"self") n!"write_int_32") (.arg (.attr (.name n!"self") n!"statistics_text") .argNil)) .argNil)))))))))) .argNil)))

/-- `class PlayerColour` — `/repo/src/genieutils/playercolour.py:8-44`. -/
def PlayerColour.src : Cls where
  name := n!"PlayerColour"
  module := n!"playercolour"
  base := n!"GenieClass"
  dataclass := true
  fields := [(n!"id", .argNil), (n!"player_color_base", .argNil), (n!"unit_outline_color", .argNil), (n!"unit_selection_color_1", .argNil), (n!"unit_selection_color_2", .argNil), (n!"minimap_color", .argNil), (n!"minimap_color_2", .argNil), (n!"minimap_color_3", .argNil), (n!"statistics_text", .argNil)]
  vars := []
  funs := [PlayerColour.src_from_bytes, PlayerColour.src_to_bytes]

/-- The names of the module `/repo/src/genieutils/playercolour.py`. -/
def module_playercolour : Module where
  name := n!"playercolour"
  globals := [
    (n!"dataclass", .lib),
    (n!"ByteHandler", .from_ n!"common"),
    (n!"GenieClass", .from_ n!"common"),
    (n!"Version", .from_ n!"versions"),
    (n!"PlayerColour", .cls)]

/-- `GraphicDelta.from_bytes` — `/repo/src/genieutils/graphic.py:18-27`. -/
def GraphicDelta.src_from_bytes : Fun where
  name := n!"from_bytes"
  kind := .classMethod
  params := [(n!"cls", .argNil), (n!"content", .argNil)]
  body :=
    (.ret (.call (.name n!"cls") (.kw n!"graphic_id" (.call (.attr (.name n!"content") n!"read_int_16") .argNil) (.kw n!"padding_1" (.call (.attr (.name n!"content") n!"read_int_16") .argNil) (.kw n!"sprite_ptr" (.call (.attr (.name n!"content") n!"read_int_32") .argNil) (.kw n!"offset_x" (.call (.attr (.name n!"content") n!"read_int_16") .argNil) (.kw n!"offset_y" (.call (.attr (.name n!"content") n!"read_int_16") .argNil) (.kw n!"display_angle" (.call (.attr (.name n!"content") n!"read_int_16") .argNil) (.kw n!"padding_2" (.call (.attr (.name n!"content") n!"read_int_16") .argNil) .argNil)))))))))

/-- `GraphicDelta.to_bytes` — `/repo/src/genieutils/graphic.py:29-38`. -/
def GraphicDelta.src_to_bytes : Fun where
  name := n!"to_bytes"
  kind := .method
  params := [(n!"self", .argNil), (n!"version", .argNil)]
  body :=
    (.ret (.call (.attr (.bytes []) n!"join") (.arg (.list (.arg (.call (.attr (.name n!"self") n!"write_int_16") (.arg (.attr (.name n!"self") n!"graphic_id") .argNil)) (.arg (.call (.attr (.name n!"self") n!"write_int_16") (.arg (.attr (.name n!"self") n!"padding_1") .argNil)) (.arg (.call (.attr (.name n!"self") n!"write_int_32") (.arg (.attr (.name n!"self") n!"sprite_ptr") .argNil)) (.arg (.call (.attr (.name n!"self") n!"write_int_16") (.arg (.attr (.name n!"self") n!"offset_x") .argNil)) (.arg (.call (.attr (.name n!"self") n!"write_int_16") (.arg (.attr (.name n!"self") n!"offset_y") .argNil)) (.arg (.call (.attr (.name n!"self") n!"write_int_16") (.arg (.attr (.name n!"self") n!"display_angle") .argNil)) (.arg (.call (.attr (.name n!"self") n!"write_int_16") (.arg (.attr (.name n!"self") n!"padding_2") .argNil)) .argNil)))))))) .argNil)))

/-- `class GraphicDelta` — `/repo/src/genieutils/graphic.py:8-38`. -/
def GraphicDelta.src : Cls where
  name := n!"GraphicDelta"
  module := n!"graphic"
  base := n!"GenieClass"
  dataclass := true
  fields := [(n!"graphic_id", .argNil), (n!"padding_1", .argNil), (n!"sprite_ptr", .argNil), (n!"offset_x", .argNil), (n!"offset_y", .argNil), (n!"display_angle", .argNil), (n!"padding_2", .argNil)]
  vars := []
  funs := [GraphicDelta.src_from_bytes, GraphicDelta.src_to_bytes]

/-- `GraphicAngleSound.from_bytes` — `/repo/src/genieutils/graphic.py:54-65`. -/
def GraphicAngleSound.src_from_bytes : Fun where
  name := n!"from_bytes"
  kind := .classMethod
  params := [(n!"cls", .argNil), (n!"content", .argNil)]
  body :=
    (.ret (.call (.name n!"cls") (.kw n!"frame_num" (.call (.attr (.name n!"content") n!"read_int_16") .argNil) (.kw n!"sound_id" (.call (.attr (.name n!"content") n!"read_int_16") .argNil) (.kw n!"wwise_sound_id" (.call (.attr (.name n!"content") n!"read_int_32") .argNil) (.kw n!"frame_num_2" (.call (.attr (.name n!"content") n!"read_int_16") .argNil) (.kw n!"sound_id_2" (.call (.attr (.name n!"content") n!"read_int_16") .argNil) (.kw n!"wwise_sound_id_2" (.call (.attr (.name n!"content") n!"read_int_32") .argNil) (.kw n!"frame_num_3" (.call (.attr (.name n!"content") n!"read_int_16") .argNil) (.kw n!"sound_id_3" (.call (.attr (.name n!"content") n!"read_int_16") .argNil) (.kw n!"wwise_sound_id_3" (.call (.attr (.name n!"content") n!"read_int_32") .argNil) .argNil)))))))))))

/-- `GraphicAngleSound.to_bytes` — `/repo/src/genieutils/graphic.py:67-78`. -/
def GraphicAngleSound.src_to_bytes : Fun where
  name := n!"to_bytes"
  kind := .method
  params := [(n!"self", .argNil), (n!"version", .argNil)]
  body :=
    (.ret (.call (.attr (.bytes []) n!"join") (.arg (.list (.arg (.call (.attr (.name n!"self") n!"write_int_16") (.arg (.attr (.name n!"self") n!"frame_num") .argNil)) (.arg (.call (.attr (.name n!"self") n!"write_int_16") (.arg (.attr (.name n!"self") n!"sound_id") .argNil)) (.arg (.call (.attr (.name n!"self") n!"write_int_32") (.arg (.attr (.name n!"self") n!"wwise_sound_id") .argNil)) (.arg (.call (.attr (.name n!"self") n!"write_int_16") (.arg (.attr (.name n!"self") n!"frame_num_2") .argNil)) (.arg (.call (.attr (.name n!"self") n!"write_int_16") (.arg (.attr (.name n!"self") n!"sound_id_2") .argNil)) (.arg (.call (.attr (.name n!"self") n!"write_int_32") (.arg (.attr (.name n!"self") n!"wwise_sound_id_2") .argNil)) (.arg (.call (.attr (.name n!"self") n!"write_int_16") (.arg (.attr (.name n!"self") n!"frame_num_3") .argNil)) (.arg (.call (.attr (.name n!"self") n!"write_int_16") (.arg (.attr (.name n!"self") n!"sound_id_3") .argNil)) (.arg (.call (.attr (.name n!"self") n!"write_int_32") (.arg (.attr (.name n!"self") n!"wwise_sound_id_3") .argNil)) .argNil)))))))))) .argNil)))

/-- `class GraphicAngleSound` — `/repo/src/genieutils/graphic.py:42-78`. -/
def GraphicAngleSound.src : Cls where
  name := n!"GraphicAngleSound"
  module := n!"graphic"
  base := n!"GenieClass"
  dataclass := true
  fields := [(n!"frame_num", .argNil), (n!"sound_id", .argNil), (n!"wwise_sound_id", .argNil), (n!"frame_num_2", .argNil), (n!"sound_id_2", .argNil), (n!"wwise_sound_id_2", .argNil), (n!"frame_num_3", .argNil), (n!"sound_id_3", .argNil), (n!"wwise_sound_id_3", .argNil)]
  vars := []
  funs := [GraphicAngleSound.src_from_bytes, GraphicAngleSound.src_to_bytes]

/-- `Graphic.from_bytes` — `/repo/src/genieutils/graphic.py:109-160`. -/
def Graphic.src_from_bytes : Fun where
  name := n!"from_bytes"
  kind := .classMethod
  params := [(n!"cls", .argNil), (n!"content", .argNil)]
  body :=
    (.assign n!"name" (.call (.attr (.name n!"content") n!"read_debug_string") .argNil)
    (.assign n!"file_name" (.call (.attr (.name n!"content") n!"read_debug_string") .argNil)
    (.assign n!"particle_effect_name" (.call (.attr (.name n!"content") n!"read_debug_string") .argNil)
    (.assign n!"slp" (.call (.attr (.name n!"content") n!"read_int_32") .argNil)
    (.assign n!"is_loaded" (.call (.attr (.name n!"content") n!"read_int_8") .argNil)
    (.assign n!"old_color_flag" (.call (.attr (.name n!"content") n!"read_int_8") .argNil)
    (.assign n!"layer" (.call (.attr (.name n!"content") n!"read_int_8") .argNil)
    (.assign n!"player_color" (.call (.attr (.name n!"content") n!"read_int_16") .argNil)
    (.assign n!"transparent_selection" (.call (.attr (.name n!"content") n!"read_int_8") .argNil)
    (.assign n!"coordinates" (.call (.attr (.name n!"content") n!"read_int_16_array_4") .argNil)
    (.assign n!"delta_count" (.call (.attr (.name n!"content") n!"read_int_16") .argNil)
    (.assign n!"sound_id" (.call (.attr (.name n!"content") n!"read_int_16") .argNil)
    (.assign n!"wwise_sound_id" (.call (.attr (.name n!"content") n!"read_int_32") .argNil)
    (.assign n!"angle_sounds_used" (.call (.attr (.name n!"content") n!"read_int_8") .argNil)
    (.assign n!"frame_count" (.call (.attr (.name n!"content") n!"read_int_16") .argNil)
    (.assign n!"angle_count" (.call (.attr (.name n!"content") n!"read_int_16") .argNil)
    (.assign n!"speed_multiplier" (.call (.attr (.name n!"content") n!"read_float") .argNil)
    (.assign n!"frame_duration" (.call (.attr (.name n!"content") n!"read_float") .argNil)
    (.assign n!"replay_delay" (.call (.attr (.name n!"content") n!"read_float") .argNil)
    (.assign n!"sequence_type" (.call (.attr (.name n!"content") n!"read_int_8") .argNil)
    (.assign n!"id_" (.call (.attr (.name n!"content") n!"read_int_16") .argNil)
    (.assign n!"mirroring_mode" (.call (.attr (.name n!"content") n!"read_int_8") .argNil)
    (.assign n!"editor_flag" (.call (.attr (.name n!"content") n!"read_int_8") .argNil)
    (.assign n!"deltas" (.call (.attr (.name n!"content") n!"read_class_array") (.arg (.name n!"GraphicDelta") (.arg (.name n!"delta_count") .argNil)))
    (.assign n!"angle_sounds" (.ifExp (.name n!"angle_sounds_used") (.call (.attr (.name n!"content") n!"read_class_array") (.arg (.name n!"GraphicAngleSound") (.arg (.name n!"angle_count") .argNil))) (.list .argNil))
    (.ret (.call (.name n!"cls") (.kw n!"name" (.name n!"name") (.kw n!"file_name" (.name n!"file_name") (.kw n!"particle_effect_name" (.name n!"particle_effect_name") (.kw n!"slp" (.name n!"slp") (.kw n!"is_loaded" (.name n!"is_loaded") (.kw n!"old_color_flag" (.name n!"old_color_flag") (.kw n!"layer" (.name n!"layer") (.kw n!"player_color" (.name n!"player_color") (.kw n!"transparent_selection" (.name n!"transparent_selection") (.kw n!"coordinates" (.name n!"coordinates") (.kw n!"sound_id" (.name n!"sound_id") (.kw n!"wwise_sound_id" (.name n!"wwise_sound_id") (.kw n!"angle_sounds_used" (.name n!"angle_sounds_used") (.kw n!"frame_count" (.name n!"frame_count") (.kw n!"angle_count" (.name n!"angle_count") (.kw n!"speed_multiplier" (.name n!"speed_multiplier") (.kw n!"frame_duration" (.name n!"frame_duration") (.kw n!"replay_delay" (.name n!"replay_delay") (.kw n!"sequence_type" (.name n!"sequence_type") (.kw n!"id" (.name n!"id_") (.kw n!"mirroring_mode" (.name n!"mirroring_mode") (.kw n!"editor_flag" (.name n!"editor_flag") (.kw n!"deltas" (.name n!"deltas") (.kw n!"angle_sounds" (.name n!"angle_sounds") .argNil)))))))))))))))))))))))))))))))))))))))))))))))))))

/-- `Graphic.to_bytes` — `/repo/src/genieutils/graphic.py:162-189`. -/
def Graphic.src_to_bytes : Fun where
  name := n!"to_bytes"
  kind := .method
  params := [(n!"self", .argNil), (n!"version", .argNil)]
  body :=
    (.ret (.call (.attr (.bytes []) n!"join") (.arg (.list (.arg (.call (.attr (.name n!"self") n!"write_debug_string") (.arg (.attr (.name n!"self") n!"name") .argNil)) (.arg (.call (.attr (.name n!"self") n!"write_debug_string") (.arg (.attr (.name n!"self") n!"file_name") .argNil)) (.arg (.call (.attr (.name n!"self") n!"write_debug_string") (.arg (.attr (.name n!"self") n!"particle_effect_name") .argNil)) (.arg (.call (.attr (.name n!"self") n!"write_int_32") (.arg (.attr (.name n!"self") n!"slp") .argNil)) (.arg (.call (.attr (.name n!"self") n!"write_int_8") (.arg (.attr (.name n!"self") n!"is_loaded") .argNil)) (.arg (.call (.attr (.name n!"self") n!"write_int_8") (.arg (.attr (.name n!"self") n!"old_color_flag") .argNil)) (.arg (.call (.attr (.name n!"self") n!"write_int_8") (.arg (.attr (.name n!"self") n!"layer") .argNil)) (.arg (.call (.attr (.name n!"self") n!"write_int_16") (.arg (.attr (.name n!"self") n!"player_color") .argNil)) (.arg (.call (.attr (.name n!"self") n!"write_int_8") (.arg (.attr (.name n!"self") n!"transparent_selection") .argNil)) (.arg (.call (.attr (.name n!"self") n!"write_int_16_array") (.arg (.attr (.name n!"self") n!"coordinates") .argNil)) (.arg (.call (.attr (.name n!"self") n!"write_int_16") (.arg (.call (.name n!"len") (.arg (.attr (.name n!"self") n!"deltas") .argNil)) .argNil)) (.arg (.call (.attr (.name n!"self") n!"write_int_16") (.arg (.attr (.name n!"self") n!"sound_id") .argNil)) (.arg (.call (.attr (.name n!"self") n!"write_int_32") (.arg (.attr (.name n!"self") n!"wwise_sound_id") .argNil)) (.arg (.call (.attr (.name n!"self") n!"write_int_8") (.arg (.attr (.name n!"self") n!"angle_sounds_used") .argNil)) (.arg (.call (.attr (.name n!"self") n!"write_int_16") (.arg (.attr (.name n!"self") n!"frame_count") .argNil)) (.arg (.call (.attr (.name n!"self") n!"write_int_16") (.arg (.attr (.name n!"self") n!"angle_count") .argNil)) (.arg (.call (.attr (.name n!"self") n!"write_float") (.arg (.attr (.name n!"self") n!"speed_multiplier") .argNil)) (.arg (.call (.attr (.name n!"self") n!"write_float") (.arg (.attr (.name n!"self") n!"frame_duration") .argNil)) (.arg (.call (.attr (.name n!"self") n!"write_float") (.arg (.attr (.name n!"self") n!"replay_delay") .argNil)) (.arg (.call (.attr (.name n!"self") n!"write_int_8") (.arg (.attr (.name n!"self") n!"sequence_type") .argNil)) (.arg (.call (.attr (.name n!"self") n!"write_int_16") (.arg (.attr (.name n!"self") n!"id") .argNil)) (.arg (.call (.attr (.name n!"self") n!"write_int_8") (.arg (.attr (.name n!"self") n!"mirroring_mode") .argNil)) (.arg (.call (.attr (.name n!"self") n!"write_int_8") (.arg (.attr (.name n!"self") n!"editor_flag") .argNil)) (.arg (.call (.attr (.name n!"self") n!"write_class_array") (.arg (.attr (.name n!"self") n!"deltas") (.arg (.name n!"version") .argNil))) (.arg (.call (.attr (.name n!"self") n!"write_class_array") (.arg (.attr (.name n!"self") n!"angle_sounds") (.arg (.name n!"version") .argNil))) .argNil)))))))))))))))))))))))))) .argNil)))

/-- `class Graphic` — `/repo/src/genieutils/graphic.py:82-189`. -/
def Graphic.src : Cls where
  name := n!"Graphic"
  module := n!"graphic"
  base := n!"GenieClass"
  dataclass := true
  fields := [(n!"name", .argNil), (n!"file_name", .argNil), (n!"particle_effect_name", .argNil), (n!"slp", .argNil), (n!"is_loaded", .argNil), (n!"old_color_flag", .argNil), (n!"layer", .argNil), (n!"player_color", .argNil), (n!"transparent_selection", .argNil), (n!"coordinates", .argNil), (n!"sound_id", .argNil), (n!"wwise_sound_id", .argNil), (n!"angle_sounds_used", .argNil), (n!"frame_count", .argNil), (n!"angle_count", .argNil), (n!"speed_multiplier", .argNil), (n!"frame_duration", .argNil), (n!"replay_delay", .argNil), (n!"sequence_type", .argNil), (n!"id", .argNil), (n!"mirroring_mode", .argNil), (n!"editor_flag", .argNil), (n!"deltas", .argNil), (n!"angle_sounds", .argNil)]
  vars := []
  funs := [Graphic.src_from_bytes, Graphic.src_to_bytes]

/-- The names of the module `/repo/src/genieutils/graphic.py`. -/
def module_graphic : Module where
  name := n!"graphic"
  globals := [
    (n!"dataclass", .lib),
    (n!"ByteHandler", .from_ n!"common"),
    (n!"GenieClass", .from_ n!"common"),
    (n!"Version", .from_ n!"versions"),
    (n!"GraphicDelta", .cls),
    (n!"GraphicAngleSound", .cls),
    (n!"Graphic", .cls)]

/-- `TerrainPassGraphic.from_bytes` — `/repo/src/genieutils/terrainrestriction.py:15-21`. -/
def TerrainPassGraphic.src_from_bytes : Fun where
  name := n!"from_bytes"
  kind := .classMethod
  params := [(n!"cls", .argNil), (n!"content", .argNil)]
  body :=
    (.ret (.call (.name n!"cls") (.kw n!"exit_tile_sprite_id" (.call (.attr (.name n!"content") n!"read_int_32") .argNil) (.kw n!"enter_tile_sprite_id" (.call (.attr (.name n!"content") n!"read_int_32") .argNil) (.kw n!"walk_tile_sprite_id" (.call (.attr (.name n!"content") n!"read_int_32") .argNil) (.kw n!"walk_sprite_rate" (.call (.attr (.name n!"content") n!"read_int_32") .argNil) .argNil))))))

/-- `TerrainPassGraphic.to_bytes` — `/repo/src/genieutils/terrainrestriction.py:23-29`. -/
def TerrainPassGraphic.src_to_bytes : Fun where
  name := n!"to_bytes"
  kind := .method
  params := [(n!"self", .argNil), (n!"version", .argNil)]
  body :=
    (.ret (.call (.attr (.bytes []) n!"join") (.arg (.list (.arg (.call (.attr (.name n!"self") n!"write_int_32") (.arg (.attr (.name n!"self") n!"exit_tile_sprite_id") .argNil)) (.arg (.call (.attr (.name n!"self") n!"write_int_32") (.arg (.attr (.name n!"self") n!"enter_tile_sprite_id") .argNil)) (.arg (.call (.attr (.name n!"self") n!"write_int_32") (.arg (.attr (.name n!"self") n!"walk_tile_sprite_id") .argNil)) (.arg (.call (.attr (.name n!"self") n!"write_int_32") (.arg (.attr (.name n!"self") n!"walk_sprite_rate") .argNil)) .argNil))))) .argNil)))

/-- `class TerrainPassGraphic` — `/repo/src/genieutils/terrainrestriction.py:8-29`. -/
def TerrainPassGraphic.src : Cls where
  name := n!"TerrainPassGraphic"
  module := n!"terrainrestriction"
  base := n!"GenieClass"
  dataclass := true
  fields := [(n!"exit_tile_sprite_id", .argNil), (n!"enter_tile_sprite_id", .argNil), (n!"walk_tile_sprite_id", .argNil), (n!"walk_sprite_rate", .argNil)]
  vars := []
  funs := [TerrainPassGraphic.src_from_bytes, TerrainPassGraphic.src_to_bytes]

/-- `TerrainRestriction.from_bytes_with_count` — `/repo/src/genieutils/terrainrestriction.py:38-42`. -/
def TerrainRestriction.src_from_bytes_with_count : Fun where
  name := n!"from_bytes_with_count"
  kind := .classMethod
  params := [(n!"cls", .argNil), (n!"content", .argNil), (n!"terrain_count", .argNil)]
  body :=
    (.ret (.call (.name n!"cls") (.kw n!"passable_buildable_dmg_multiplier" (.call (.attr (.name n!"content") n!"read_float_array") (.arg (.name n!"terrain_count") .argNil)) (.kw n!"terrain_pass_graphics" (.call (.attr (.name n!"content") n!"read_class_array") (.arg (.name n!"TerrainPassGraphic") (.arg (.name n!"terrain_count") .argNil))) .argNil))))

/-- `TerrainRestriction.to_bytes` — `/repo/src/genieutils/terrainrestriction.py:44-49`. -/
def TerrainRestriction.src_to_bytes : Fun where
  name := n!"to_bytes"
  kind := .method
  params := [(n!"self", .argNil), (n!"version", .argNil)]
  body :=
    (.assert (.compare (.call (.name n!"len") (.arg (.attr (.name n!"self") n!"passable_buildable_dmg_multiplier") .argNil)) (.cmp .eq (.call (.name n!"len") (.arg (.attr (.name n!"self") n!"terrain_pass_graphics") .argNil)) .cmpNil))
    (.ret (.call (.attr (.bytes []) n!"join") (.arg (.list (.arg (.call (.attr (.name n!"self") n!"write_float_array") (.arg (.attr (.name n!"self") n!"passable_buildable_dmg_multiplier") .argNil)) (.arg (.call (.attr (.name n!"self") n!"write_class_array") (.arg (.attr (.name n!"self") n!"terrain_pass_graphics") (.arg (.name n!"version") .argNil))) .argNil))) .argNil))))

/-- `class TerrainRestriction` — `/repo/src/genieutils/terrainrestriction.py:33-49`. -/
def TerrainRestriction.src : Cls where
  name := n!"TerrainRestriction"
  module := n!"terrainrestriction"
  base := n!"GenieClass"
  dataclass := true
  fields := [(n!"passable_buildable_dmg_multiplier", .argNil), (n!"terrain_pass_graphics", .argNil)]
  vars := []
  funs := [TerrainRestriction.src_from_bytes_with_count, TerrainRestriction.src_to_bytes]

/-- The names of the module `/repo/src/genieutils/terrainrestriction.py`. -/
def module_terrainrestriction : Module where
  name := n!"terrainrestriction"
  globals := [
    (n!"dataclass", .lib),
    (n!"ByteHandler", .from_ n!"common"),
    (n!"GenieClass", .from_ n!"common"),
    (n!"Version", .from_ n!"versions"),
    (n!"TerrainPassGraphic", .cls),
    (n!"TerrainRestriction", .cls)]

/-- `FrameData.from_bytes` — `/repo/src/genieutils/terrainblock.py:14-19`. -/
def FrameData.src_from_bytes : Fun where
  name := n!"from_bytes"
  kind := .classMethod
  params := [(n!"cls", .argNil), (n!"content", .argNil)]
  body :=
    (.ret (.call (.name n!"cls") (.kw n!"frame_count" (.call (.attr (.name n!"content") n!"read_int_16") .argNil) (.kw n!"angle_count" (.call (.attr (.name n!"content") n!"read_int_16") .argNil) (.kw n!"shape_id" (.call (.attr (.name n!"content") n!"read_int_16") .argNil) .argNil)))))

/-- `FrameData.to_bytes` — `/repo/src/genieutils/terrainblock.py:21-26`. -/
def FrameData.src_to_bytes : Fun where
  name := n!"to_bytes"
  kind := .method
  params := [(n!"self", .argNil), (n!"version", .argNil)]
  body :=
    (.ret (.call (.attr (.bytes []) n!"join") (.arg (.list (.arg (.call (.attr (.name n!"self") n!"write_int_16") (.arg (.attr (.name n!"self") n!"frame_count") .argNil)) (.arg (.call (.attr (.name n!"self") n!"write_int_16") (.arg (.attr (.name n!"self") n!"angle_count") .argNil)) (.arg (.call (.attr (.name n!"self") n!"write_int_16") (.arg (.attr (.name n!"self") n!"shape_id") .argNil)) .argNil)))) .argNil)))

/-- `class FrameData` — `/repo/src/genieutils/terrainblock.py:8-26`. -/
def FrameData.src : Cls where
  name := n!"FrameData"
  module := n!"terrainblock"
  base := n!"GenieClass"
  dataclass := true
  fields := [(n!"frame_count", .argNil), (n!"angle_count", .argNil), (n!"shape_id", .argNil)]
  vars := []
  funs := [FrameData.src_from_bytes, FrameData.src_to_bytes]

/-- `Terrain.from_bytes` — `/repo/src/genieutils/terrainblock.py:71-111`. -/
def Terrain.src_from_bytes : Fun where
  name := n!"from_bytes"
  kind := .classMethod
  params := [(n!"cls", .argNil), (n!"content", .argNil)]
  body :=
    (.ret (.call (.name n!"cls") (.kw n!"enabled" (.call (.attr (.name n!"content") n!"read_int_8") .argNil) (.kw n!"random" (.call (.attr (.name n!"content") n!"read_int_8") .argNil) (.kw n!"is_water" (.call (.attr (.name n!"content") n!"read_int_8") .argNil) (.kw n!"hide_in_editor" (.call (.attr (.name n!"content") n!"read_int_8") .argNil) (.kw n!"string_id" (.call (.attr (.name n!"content") n!"read_int_32") .argNil) (.kw n!"name" (.call (.attr (.name n!"content") n!"read_debug_string") .argNil) (.kw n!"name_2" (.call (.attr (.name n!"content") n!"read_debug_string") .argNil) (.kw n!"slp" (.call (.attr (.name n!"content") n!"read_int_32") .argNil) (.kw n!"shape_ptr" (.call (.attr (.name n!"content") n!"read_int_32") .argNil) (.kw n!"sound_id" (.call (.attr (.name n!"content") n!"read_int_32") .argNil) (.kw n!"wwise_sound_id" (.call (.attr (.name n!"content") n!"read_int_32") (.kw n!"signed" (.bool false) .argNil)) (.kw n!"wwise_sound_stop_id" (.call (.attr (.name n!"content") n!"read_int_32") (.kw n!"signed" (.bool false) .argNil)) (.kw n!"blend_priority" (.call (.attr (.name n!"content") n!"read_int_32") .argNil) (.kw n!"blend_type" (.call (.attr (.name n!"content") n!"read_int_32") .argNil) (.kw n!"overlay_mask_name" (.call (.attr (.name n!"content") n!"read_debug_string") .argNil) (.kw n!"colors" (.call (.attr (.name n!"content") n!"read_int_8_array_3") .argNil) (.kw n!"cliff_colors" (.call (.attr (.name n!"content") n!"read_int_8_array_2") .argNil) (.kw n!"passable_terrain" (.call (.attr (.name n!"content") n!"read_int_8") .argNil) (.kw n!"impassable_terrain" (.call (.attr (.name n!"content") n!"read_int_8") .argNil) (.kw n!"is_animated" (.call (.attr (.name n!"content") n!"read_int_8") .argNil) (.kw n!"animation_frames" (.call (.attr (.name n!"content") n!"read_int_16") .argNil) (.kw n!"pause_frames" (.call (.attr (.name n!"content") n!"read_int_16") .argNil) (.kw n!"interval" (.call (.attr (.name n!"content") n!"read_float") .argNil) (.kw n!"pause_between_loops" (.call (.attr (.name n!"content") n!"read_float") .argNil) (.kw n!"frame" (.call (.attr (.name n!"content") n!"read_int_16") .argNil) (.kw n!"draw_frame" (.call (.attr (.name n!"content") n!"read_int_16") .argNil) (.kw n!"animate_last" (.call (.attr (.name n!"content") n!"read_float") .argNil) (.kw n!"frame_changed" (.call (.attr (.name n!"content") n!"read_int_8") .argNil) (.kw n!"drawn" (.call (.attr (.name n!"content") n!"read_int_8") .argNil) (.kw n!"frame_data" (.call (.attr (.name n!"content") n!"read_class_array") (.arg (.name n!"FrameData") (.arg (.name n!"TILE_TYPE_COUNT") .argNil))) (.kw n!"terrain_to_draw" (.call (.attr (.name n!"content") n!"read_int_16") .argNil) (.kw n!"terrain_dimensions" (.call (.attr (.name n!"content") n!"read_int_16_array_2") .argNil) (.kw n!"terrain_unit_masked_density" (.call (.attr (.name n!"content") n!"read_int_16_array") (.arg (.name n!"TERRAIN_UNITS_SIZE") .argNil)) (.kw n!"terrain_unit_id" (.call (.attr (.name n!"content") n!"read_int_16_array") (.arg (.name n!"TERRAIN_UNITS_SIZE") .argNil)) (.kw n!"terrain_unit_density" (.call (.attr (.name n!"content") n!"read_int_16_array") (.arg (.name n!"TERRAIN_UNITS_SIZE") .argNil)) (.kw n!"terrain_unit_centering" (.call (.attr (.name n!"content") n!"read_int_8_array") (.arg (.name n!"TERRAIN_UNITS_SIZE") .argNil)) (.kw n!"number_of_terrain_units_used" (.call (.attr (.name n!"content") n!"read_int_16") .argNil) (.kw n!"phantom" (.call (.attr (.name n!"content") n!"read_int_16") .argNil) .argNil))))))))))))))))))))))))))))))))))))))))

/-- `Terrain.to_bytes` — `/repo/src/genieutils/terrainblock.py:113-153`. -/
def Terrain.src_to_bytes : Fun where
  name := n!"to_bytes"
  kind := .method
  params := [(n!"self", .argNil), (n!"version", .argNil)]
  body :=
    (.ret (.call (.attr (.bytes []) n!"join") (.arg (.list (.arg (.call (.attr (.name n!"self") n!"write_int_8") (.arg (.attr (.name n!"self") n!"enabled") .argNil)) (.arg (.call (.attr (.name n!"self") n!"write_int_8") (.arg (.attr (.name n!"self") n!"random") .argNil)) (.arg (.call (.attr (.name n!"self") n!"write_int_8") (.arg (.attr (.name n!"self") n!"is_water") .argNil)) (.arg (.call (.attr (.name n!"self") n!"write_int_8") (.arg (.attr (.name n!"self") n!"hide_in_editor") .argNil)) (.arg (.call (.attr (.name n!"self") n!"write_int_32") (.arg (.attr (.name n!"self") n!"string_id") .argNil)) (.arg (.call (.attr (.name n!"self") n!"write_debug_string") (.arg (.attr (.name n!"self") n!"name") .argNil)) (.arg (.call (.attr (.name n!"self") n!"write_debug_string") (.arg (.attr (.name n!"self") n!"name_2") .argNil)) (.arg (.call (.attr (.name n!"self") n!"write_int_32") (.arg (.attr (.name n!"self") n!"slp") .argNil)) (.arg (.call (.attr (.name n!"self") n!"write_int_32") (.arg (.attr (.name n!"self") n!"shape_ptr") .argNil)) (.arg (.call (.attr (.name n!"self") n!"write_int_32") (.arg (.attr (.name n!"self") n!"sound_id") .argNil)) (.arg (.call (.attr (.name n!"self") n!"write_int_32") (.arg (.attr (.name n!"self") n!"wwise_sound_id") (.kw n!"signed" (.bool false) .argNil))) (.arg (.call (.attr (.name n!"self") n!"write_int_32") (.arg (.attr (.name n!"self") n!"wwise_sound_stop_id") (.kw n!"signed" (.bool false) .argNil))) (.arg (.call (.attr (.name n!"self") n!"write_int_32") (.arg (.attr (.name n!"self") n!"blend_priority") .argNil)) (.arg (.call (.attr (.name n!"self") n!"write_int_32") (.arg (.attr (.name n!"self") n!"blend_type") .argNil)) (.arg (.call (.attr (.name n!"self") n!"write_debug_string") (.arg (.attr (.name n!"self") n!"overlay_mask_name") .argNil)) (.arg (.call (.attr (.name n!"self") n!"write_int_8_array") (.arg (.attr (.name n!"self") n!"colors") .argNil)) (.arg (.call (.attr (.name n!"self") n!"write_int_8_array") (.arg (.attr (.name n!"self") n!"cliff_colors") .argNil)) (.arg (.call (.attr (.name n!"self") n!"write_int_8") (.arg (.attr (.name n!"self") n!"passable_terrain") .argNil)) (.arg (.call (.attr (.name n!"self") n!"write_int_8") (.arg (.attr (.name n!"self") n!"impassable_terrain") .argNil)) (.arg (.call (.attr (.name n!"self") n!"write_int_8") (.arg (.attr (.name n!"self") n!"is_animated") .argNil)) (.arg (.call (.attr (.name n!"self") n!"write_int_16") (.arg (.attr (.name n!"self") n!"animation_frames") .argNil)) (.arg (.call (.attr (.name n!"self") n!"write_int_16") (.arg (.attr (.name n!"self") n!"pause_frames") .argNil)) (.arg (.call (.attr (.name n!"self") n!"write_float") (.arg (.attr (.name n!"self") n!"interval") .argNil)) (.arg (.call (.attr (.name n!"self") n!"write_float") (.arg (.attr (.name n!"self") n!"pause_between_loops") .argNil)) (.arg (.call (.attr (.name n!"self") n!"write_int_16") (.arg (.attr (.name n!"self") n!"frame") .argNil)) (.arg (.call (.attr (.name n!"self") n!"write_int_16") (.arg (.attr (.name n!"self") n!"draw_frame") .argNil)) (.arg (.call (.attr (.name n!"self") n!"write_float") (.arg (.attr (.name n!"self") n!"animate_last") .argNil)) (.arg (.call (.attr (.name n!"self") n!"write_int_8") (.arg (.attr (.name n!"self") n!"frame_changed") .argNil)) (.arg (.call (.attr (.name n!"self") n!"write_int_8") (.arg (.attr (.name n!"self") n!"drawn") .argNil)) (.arg (.call (.attr (.name n!"self") n!"write_class_array") (.arg (.attr (.name n!"self") n!"frame_data") (.arg (.name n!"version") .argNil))) (.arg (.call (.attr (.name n!"self") n!"write_int_16") (.arg (.attr (.name n!"self") n!"terrain_to_draw") .argNil)) (.arg (.call (.attr (.name n!"self") n!"write_int_16_array") (.arg (.attr (.name n!"self") n!"terrain_dimensions") .argNil)) (.arg (.call (.attr (.name n!"self") n!"write_int_16_array") (.arg (.attr (.name n!"self") n!"terrain_unit_masked_density") .argNil)) (.arg (.call (.attr (.name n!"self") n!"write_int_16_array") (.arg (.attr (.name n!"self") n!"terrain_unit_id") .argNil)) (.arg (.call (.attr (.name n!"self") n!"write_int_16_array") (.arg (.attr (.name n!"self") n!"terrain_unit_density") .argNil)) (.arg (.call (.attr (.name n!"self") n!"write_int_8_array") (.arg (.attr (.name n!"self") n!"terrain_unit_centering") .argNil)) (.arg (.call (.attr (.name n!"self") n!"write_int_16") (.arg (.attr (.name n!"self") n!"number_of_terrain_units_used") .argNil)) (.arg (.call (.attr (.name n!"self") n!"write_int_16") (.arg (.attr (.name n!"self") n!"phantom") .argNil)) .argNil))))))))))))))))))))))))))))))))))))))) .argNil)))

/-- `class Terrain` — `/repo/src/genieutils/terrainblock.py:30-153`. -/
def Terrain.src : Cls where
  name := n!"Terrain"
  module := n!"terrainblock"
  base := n!"GenieClass"
  dataclass := true
  fields := [(n!"enabled", .argNil), (n!"random", .argNil), (n!"is_water", .argNil), (n!"hide_in_editor", .argNil), (n!"string_id", .argNil), (n!"name", .argNil), (n!"name_2", .argNil), (n!"slp", .argNil), (n!"shape_ptr", .argNil), (n!"sound_id", .argNil), (n!"wwise_sound_id", .argNil), (n!"wwise_sound_stop_id", .argNil), (n!"blend_priority", .argNil), (n!"blend_type", .argNil), (n!"overlay_mask_name", .argNil), (n!"colors", .argNil), (n!"cliff_colors", .argNil), (n!"passable_terrain", .argNil), (n!"impassable_terrain", .argNil), (n!"is_animated", .argNil), (n!"animation_frames", .argNil), (n!"pause_frames", .argNil), (n!"interval", .argNil), (n!"pause_between_loops", .argNil), (n!"frame", .argNil), (n!"draw_frame", .argNil), (n!"animate_last", .argNil), (n!"frame_changed", .argNil), (n!"drawn", .argNil), (n!"frame_data", .argNil), (n!"terrain_to_draw", .argNil), (n!"terrain_dimensions", .argNil), (n!"terrain_unit_masked_density", .argNil), (n!"terrain_unit_id", .argNil), (n!"terrain_unit_density", .argNil), (n!"terrain_unit_centering", .argNil), (n!"number_of_terrain_units_used", .argNil), (n!"phantom", .argNil)]
  vars := []
  funs := [Terrain.src_from_bytes, Terrain.src_to_bytes]

/-- `TileSize.from_bytes` — `/repo/src/genieutils/terrainblock.py:163-168`. -/
def TileSize.src_from_bytes : Fun where
  name := n!"from_bytes"
  kind := .classMethod
  params := [(n!"cls", .argNil), (n!"content", .argNil)]
  body :=
    (.ret (.call (.name n!"cls") (.kw n!"width" (.call (.attr (.name n!"content") n!"read_int_16") .argNil) (.kw n!"height" (.call (.attr (.name n!"content") n!"read_int_16") .argNil) (.kw n!"delta_y" (.call (.attr (.name n!"content") n!"read_int_16") .argNil) .argNil)))))

/-- `TileSize.to_bytes` — `/repo/src/genieutils/terrainblock.py:170-175`. -/
def TileSize.src_to_bytes : Fun where
  name := n!"to_bytes"
  kind := .method
  params := [(n!"self", .argNil), (n!"version", .argNil)]
  body :=
    (.ret (.call (.attr (.bytes []) n!"join") (.arg (.list (.arg (.call (.attr (.name n!"self") n!"write_int_16") (.arg (.attr (.name n!"self") n!"width") .argNil)) (.arg (.call (.attr (.name n!"self") n!"write_int_16") (.arg (.attr (.name n!"self") n!"height") .argNil)) (.arg (.call (.attr (.name n!"self") n!"write_int_16") (.arg (.attr (.name n!"self") n!"delta_y") .argNil)) .argNil)))) .argNil)))

/-- `class TileSize` — `/repo/src/genieutils/terrainblock.py:157-175`. -/
def TileSize.src : Cls where
  name := n!"TileSize"
  module := n!"terrainblock"
  base := n!"GenieClass"
  dataclass := true
  fields := [(n!"width", .argNil), (n!"height", .argNil), (n!"delta_y", .argNil)]
  vars := []
  funs := [TileSize.src_from_bytes, TileSize.src_to_bytes]

/-- `TerrainBlock.from_bytes` — `/repo/src/genieutils/terrainblock.py:216-252`. -/
def TerrainBlock.src_from_bytes : Fun where
  name := n!"from_bytes"
  kind := .classMethod
  params := [(n!"cls", .argNil), (n!"content", .argNil)]
  body :=
    (.ret (.call (.name n!"cls") (.kw n!"virtual_function_ptr" (.call (.attr (.name n!"content") n!"read_int_32") (.kw n!"signed" (.bool false) .argNil)) (.kw n!"map_pointer" (.call (.attr (.name n!"content") n!"read_int_32") (.kw n!"signed" (.bool false) .argNil)) (.kw n!"map_width" (.call (.attr (.name n!"content") n!"read_int_32") .argNil) (.kw n!"map_height" (.call (.attr (.name n!"content") n!"read_int_32") .argNil) (.kw n!"world_width" (.call (.attr (.name n!"content") n!"read_int_32") .argNil) (.kw n!"world_height" (.call (.attr (.name n!"content") n!"read_int_32") .argNil) (.kw n!"tile_sizes" (.call (.attr (.name n!"content") n!"read_class_array") (.arg (.name n!"TileSize") (.arg (.name n!"TILE_TYPE_COUNT") .argNil))) (.kw n!"padding_ts" (.call (.attr (.name n!"content") n!"read_int_16") .argNil) (.kw n!"terrains" (.call (.attr (.name n!"content") n!"read_class_array") (.arg (.name n!"Terrain") (.arg (.name n!"TERRAIN_COUNT") .argNil))) (.kw n!"map_min_x" (.call (.attr (.name n!"content") n!"read_float") .argNil) (.kw n!"map_min_y" (.call (.attr (.name n!"content") n!"read_float") .argNil) (.kw n!"map_max_x" (.call (.attr (.name n!"content") n!"read_float") .argNil) (.kw n!"map_max_y" (.call (.attr (.name n!"content") n!"read_float") .argNil) (.kw n!"map_max_x_plus_1" (.call (.attr (.name n!"content") n!"read_float") .argNil) (.kw n!"map_max_y_plus_1" (.call (.attr (.name n!"content") n!"read_float") .argNil) (.kw n!"terrains_used_2" (.call (.attr (.name n!"content") n!"read_int_16") .argNil) (.kw n!"borders_used" (.call (.attr (.name n!"content") n!"read_int_16") .argNil) (.kw n!"max_terrain" (.call (.attr (.name n!"content") n!"read_int_16") .argNil) (.kw n!"tile_width" (.call (.attr (.name n!"content") n!"read_int_16") .argNil) (.kw n!"tile_height" (.call (.attr (.name n!"content") n!"read_int_16") .argNil) (.kw n!"tile_half_height" (.call (.attr (.name n!"content") n!"read_int_16") .argNil) (.kw n!"tile_half_width" (.call (.attr (.name n!"content") n!"read_int_16") .argNil) (.kw n!"elev_height" (.call (.attr (.name n!"content") n!"read_int_16") .argNil) (.kw n!"cur_row" (.call (.attr (.name n!"content") n!"read_int_16") .argNil) (.kw n!"cur_col" (.call (.attr (.name n!"content") n!"read_int_16") .argNil) (.kw n!"block_beg_row" (.call (.attr (.name n!"content") n!"read_int_16") .argNil) (.kw n!"block_end_row" (.call (.attr (.name n!"content") n!"read_int_16") .argNil) (.kw n!"block_beg_col" (.call (.attr (.name n!"content") n!"read_int_16") .argNil) (.kw n!"block_end_col" (.call (.attr (.name n!"content") n!"read_int_16") .argNil) (.kw n!"search_map_ptr" (.call (.attr (.name n!"content") n!"read_int_32") (.kw n!"signed" (.bool false) .argNil)) (.kw n!"search_map_rows_ptr" (.call (.attr (.name n!"content") n!"read_int_32") (.kw n!"signed" (.bool false) .argNil)) (.kw n!"any_frame_change" (.call (.attr (.name n!"content") n!"read_int_8") .argNil) (.kw n!"map_visible_flag" (.call (.attr (.name n!"content") n!"read_int_8") .argNil) (.kw n!"fog_flag" (.call (.attr (.name n!"content") n!"read_int_8") .argNil) .argNil))))))))))))))))))))))))))))))))))))

/-- `TerrainBlock.to_bytes` — `/repo/src/genieutils/terrainblock.py:254-290`. -/
def TerrainBlock.src_to_bytes : Fun where
  name := n!"to_bytes"
  kind := .method
  params := [(n!"self", .argNil), (n!"version", .argNil)]
  body :=
    (.ret (.call (.attr (.bytes []) n!"join") (.arg (.list (.arg (.call (.attr (.name n!"self") n!"write_int_32") (.arg (.attr (.name n!"self") n!"virtual_function_ptr") (.kw n!"signed" (.bool false) .argNil))) (.arg (.call (.attr (.name n!"self") n!"write_int_32") (.arg (.attr (.name n!"self") n!"map_pointer") (.kw n!"signed" (.bool false) .argNil))) (.arg (.call (.attr (.name n!"self") n!"write_int_32") (.arg (.attr (.name n!"self") n!"map_width") .argNil)) (.arg (.call (.attr (.name n!"self") n!"write_int_32") (.arg (.attr (.name n!"self") n!"map_height") .argNil)) (.arg (.call (.attr (.name n!"self") n!"write_int_32") (.arg (.attr (.name n!"self") n!"world_width") .argNil)) (.arg (.call (.attr (.name n!"self") n!"write_int_32") (.arg (.attr (.name n!"self") n!"world_height") .argNil)) (.arg (.call (.attr (.name n!"self") n!"write_class_array") (.arg (.attr (.name n!"self") n!"tile_sizes") (.arg (.name n!"version") .argNil))) (.arg (.call (.attr (.name n!"self") n!"write_int_16") (.arg (.attr (.name n!"self") n!"padding_ts") .argNil)) (.arg (.call (.attr (.name n!"self") n!"write_class_array") (.arg (.attr (.name n!"self") n!"terrains") (.arg (.name n!"version") .argNil))) (.arg (.call (.attr (.name n!"self") n!"write_float") (.arg (.attr (.name n!"self") n!"map_min_x") .argNil)) (.arg (.call (.attr (.name n!"self") n!"write_float") (.arg (.attr (.name n!"self") n!"map_min_y") .argNil)) (.arg (.call (.attr (.name n!"self") n!"write_float") (.arg (.attr (.name n!"self") n!"map_max_x") .argNil)) (.arg (.call (.attr (.name n!"self") n!"write_float") (.arg (.attr (.name n!"self") n!"map_max_y") .argNil)) (.arg (.call (.attr (.name n!"self") n!"write_float") (.arg (.attr (.name n!"self") n!"map_max_x_plus_1") .argNil)) (.arg (.call (.attr (.name n!"self") n!"write_float") (.arg (.attr (.name n!"self") n!"map_max_y_plus_1") .argNil)) (.arg (.call (.attr (.name n!"self") n!"write_int_16") (.arg (.attr (.name n!"self") n!"terrains_used_2") .argNil)) (.arg (.call (.attr (.name n!"self") n!"write_int_16") (.arg (.attr (.name n!"self") n!"borders_used") .argNil)) (.arg (.call (.attr (.name n!"self") n!"write_int_16") (.arg (.attr (.name n!"self") n!"max_terrain") .argNil)) (.arg (.call (.attr (.name n!"self") n!"write_int_16") (.arg (.attr (.name n!"self") n!"tile_width") .argNil)) (.arg (.call (.attr (.name n!"self") n!"write_int_16") (.arg (.attr (.name n!"self") n!"tile_height") .argNil)) (.arg (.call (.attr (.name n!"self") n!"write_int_16") (.arg (.attr (.name n!"self") n!"tile_half_height") .argNil)) (.arg (.call (.attr (.name n!"self") n!"write_int_16") (.arg (.attr (.name n!"self") n!"tile_half_width") .argNil)) (.arg (.call (.attr (.name n!"self") n!"write_int_16") (.arg (.attr (.name n!"self") n!"elev_height") .argNil)) (.arg (.call (.attr (.name n!"self") n!"write_int_16") (.arg (.attr (.name n!"self") n!"cur_row") .argNil)) (.arg (.call (.attr (.name n!"self") n!"write_int_16") (.arg (.attr (.name n!"self") n!"cur_col") .argNil)) (.arg (.call (.attr (.name n!"self") n!"write_int_16") (.arg (.attr (.name n!"self") n!"block_beg_row") .argNil)) (.arg (.call (.attr (.name n!"self") n!"write_int_16") (.arg (.attr (.name n!"self") n!"block_end_row") .argNil)) (.arg (.call (.attr (.name n!"self") n!"write_int_16") (.arg (.attr (.name n!"self") n!"block_beg_col") .argNil)) (.arg (.call (.attr (.name n!"self") n!"write_int_16") (.arg (.attr (.name n!"self") n!"block_end_col") .argNil)) (.arg (.call (.attr (.name n!"self") n!"write_int_32") (.arg (.attr (.name n!"self") n!"search_map_ptr") (.kw n!"signed" (.bool false) .argNil))) (.arg (.call (.attr (.name n!"self") n!"write_int_32") (.arg (.attr (.name n!"self") n!"search_map_rows_ptr") (.kw n!"signed" (.bool false) .argNil))) (.arg (.call (.attr (.name n!"self") n!"write_int_8") (.arg (.attr (.name n!"self") n!"any_frame_change") .argNil)) (.arg (.call (.attr (.name n!"self") n!"write_int_8") (.arg (.attr (.name n!"self") n!"map_visible_flag") .argNil)) (.arg (.call (.attr (.name n!"self") n!"write_int_8") (.arg (.attr (.name n!"self") n!"fog_flag") .argNil)) .argNil))))))))))))))))))))))))))))))))))) .argNil)))

/-- `class TerrainBlock` — `/repo/src/genieutils/terrainblock.py:179-290`. -/
def TerrainBlock.src : Cls where
  name := n!"TerrainBlock"
  module := n!"terrainblock"
  base := n!"GenieClass"
  dataclass := true
  fields := [(n!"virtual_function_ptr", .argNil), (n!"map_pointer", .argNil), (n!"map_width", .argNil), (n!"map_height", .argNil), (n!"world_width", .argNil), (n!"world_height", .argNil), (n!"tile_sizes", .argNil), (n!"padding_ts", .argNil), (n!"terrains", .argNil), (n!"map_min_x", .argNil), (n!"map_min_y", .argNil), (n!"map_max_x", .argNil), (n!"map_max_y", .argNil), (n!"map_max_x_plus_1", .argNil), (n!"map_max_y_plus_1", .argNil), (n!"terrains_used_2", .argNil), (n!"borders_used", .argNil), (n!"max_terrain", .argNil), (n!"tile_width", .argNil), (n!"tile_height", .argNil), (n!"tile_half_height", .argNil), (n!"tile_half_width", .argNil), (n!"elev_height", .argNil), (n!"cur_row", .argNil), (n!"cur_col", .argNil), (n!"block_beg_row", .argNil), (n!"block_end_row", .argNil), (n!"block_beg_col", .argNil), (n!"block_end_col", .argNil), (n!"search_map_ptr", .argNil), (n!"search_map_rows_ptr", .argNil), (n!"any_frame_change", .argNil), (n!"map_visible_flag", .argNil), (n!"fog_flag", .argNil)]
  vars := []
  funs := [TerrainBlock.src_from_bytes, TerrainBlock.src_to_bytes]

/-- The names of the module `/repo/src/genieutils/terrainblock.py`. -/
def module_terrainblock : Module where
  name := n!"terrainblock"
  globals := [
    (n!"dataclass", .lib),
    (n!"ByteHandler", .from_ n!"common"),
    (n!"TILE_TYPE_COUNT", .from_ n!"common"),
    (n!"TERRAIN_COUNT", .from_ n!"common"),
    (n!"GenieClass", .from_ n!"common"),
    (n!"TERRAIN_UNITS_SIZE", .from_ n!"common"),
    (n!"Version", .from_ n!"versions"),
    (n!"FrameData", .cls),
    (n!"Terrain", .cls),
    (n!"TileSize", .cls),
    (n!"TerrainBlock", .cls)]

/-- `MapUnit.from_bytes` — `/repo/src/genieutils/randommaps.py:24-39`. -/
def MapUnit.src_from_bytes : Fun where
  name := n!"from_bytes"
  kind := .classMethod
  params := [(n!"cls", .argNil), (n!"content", .argNil)]
  body :=
    (.ret (.call (.name n!"cls") (.kw n!"unit" (.call (.attr (.name n!"content") n!"read_int_32") .argNil) (.kw n!"host_terrain" (.call (.attr (.name n!"content") n!"read_int_32") .argNil) (.kw n!"group_placing" (.call (.attr (.name n!"content") n!"read_int_8") .argNil) (.kw n!"scale_flag" (.call (.attr (.name n!"content") n!"read_int_8") .argNil) (.kw n!"padding_1" (.call (.attr (.name n!"content") n!"read_int_16") .argNil) (.kw n!"objects_per_group" (.call (.attr (.name n!"content") n!"read_int_32") .argNil) (.kw n!"fluctuation" (.call (.attr (.name n!"content") n!"read_int_32") .argNil) (.kw n!"groups_per_player" (.call (.attr (.name n!"content") n!"read_int_32") .argNil) (.kw n!"group_arena" (.call (.attr (.name n!"content") n!"read_int_32") .argNil) (.kw n!"player_id" (.call (.attr (.name n!"content") n!"read_int_32") .argNil) (.kw n!"set_place_for_all_players" (.call (.attr (.name n!"content") n!"read_int_32") .argNil) (.kw n!"min_distance_to_players" (.call (.attr (.name n!"content") n!"read_int_32") .argNil) (.kw n!"max_distance_to_players" (.call (.attr (.name n!"content") n!"read_int_32") .argNil) .argNil)))))))))))))))

/-- `MapUnit.to_bytes` — `/repo/src/genieutils/randommaps.py:41-56`. -/
def MapUnit.src_to_bytes : Fun where
  name := n!"to_bytes"
  kind := .method
  params := [(n!"self", .argNil), (n!"version", .argNil)]
  body :=
    (.ret (.call (.attr (.bytes []) n!"join") (.arg (.list (.arg (.call (.attr (.name n!"self") n!"write_int_32") (.arg (.attr (.name n!"self") n!"unit") .argNil)) (.arg (.call (.attr (.name n!"self") n!"write_int_32") (.arg (.attr (.name n!"self") n!"host_terrain") .argNil)) (.arg (.call (.attr (.name n!"self") n!"write_int_8") (.arg (.attr (.name n!"self") n!"group_placing") .argNil)) (.arg (.call (.attr (.name n!"self") n!"write_int_8") (.arg (.attr (.name n!"self") n!"scale_flag") .argNil)) (.arg (.call (.attr (.name n!"self") n!"write_int_16") (.arg (.attr (.name n!"self") n!"padding_1") .argNil)) (.arg (.call (.attr (.name n!"self") n!"write_int_32") (.arg (.attr (.name n!"self") n!"objects_per_group") .argNil)) (.arg (.call (.attr (.name n!"self") n!"write_int_32") (.arg (.attr (.name n!"self") n!"fluctuation") .argNil)) (.arg (.call (.attr (.name n!"self") n!"write_int_32") (.arg (.attr (.name n!"self") n!"groups_per_player") .argNil)) (.arg (.call (.attr (.name n!"self") n!"write_int_32") (.arg (.attr (.name n!"self") n!"group_arena") .argNil)) (.arg (.call (.attr (.name n!"self") n!"write_int_32") (.arg (.attr (.name n!"self") n!"player_id") .argNil)) (.arg (.call (.attr (.name n!"self") n!"write_int_32") (.arg (.attr (.name n!"self") n!"set_place_for_all_players") .argNil)) (.arg (.call (.attr (.name n!"self") n!"write_int_32") (.arg (.attr (.name n!"self") n!"min_distance_to_players") .argNil)) (.arg (.call (.attr (.name n!"self") n!"write_int_32") (.arg (.attr (.name n!"self") n!"max_distance_to_players") .argNil)) .argNil)))))))))))))) .argNil)))

/-- `class MapUnit` — `/repo/src/genieutils/randommaps.py:8-56`. -/
def MapUnit.src : Cls where
  name := n!"MapUnit"
  module := n!"randommaps"
  base := n!"GenieClass"
  dataclass := true
  fields := [(n!"unit", .argNil), (n!"host_terrain", .argNil), (n!"group_placing", .argNil), (n!"scale_flag", .argNil), (n!"padding_1", .argNil), (n!"objects_per_group", .argNil), (n!"fluctuation", .argNil), (n!"groups_per_player", .argNil), (n!"group_arena", .argNil), (n!"player_id", .argNil), (n!"set_place_for_all_players", .argNil), (n!"min_distance_to_players", .argNil), (n!"max_distance_to_players", .argNil)]
  vars := []
  funs := [MapUnit.src_from_bytes, MapUnit.src_to_bytes]

/-- `MapTerrain.from_bytes` — `/repo/src/genieutils/randommaps.py:69-77`. -/
def MapTerrain.src_from_bytes : Fun where
  name := n!"from_bytes"
  kind := .classMethod
  params := [(n!"cls", .argNil), (n!"content", .argNil)]
  body :=
    (.ret (.call (.name n!"cls") (.kw n!"proportion" (.call (.attr (.name n!"content") n!"read_int_32") .argNil) (.kw n!"terrain" (.call (.attr (.name n!"content") n!"read_int_32") .argNil) (.kw n!"clump_count" (.call (.attr (.name n!"content") n!"read_int_32") .argNil) (.kw n!"edge_spacing" (.call (.attr (.name n!"content") n!"read_int_32") .argNil) (.kw n!"placement_terrain" (.call (.attr (.name n!"content") n!"read_int_32") .argNil) (.kw n!"clumpiness" (.call (.attr (.name n!"content") n!"read_int_32") .argNil) .argNil))))))))

/-- `MapTerrain.to_bytes` — `/repo/src/genieutils/randommaps.py:79-87`. -/
def MapTerrain.src_to_bytes : Fun where
  name := n!"to_bytes"
  kind := .method
  params := [(n!"self", .argNil), (n!"version", .argNil)]
  body :=
    (.ret (.call (.attr (.bytes []) n!"join") (.arg (.list (.arg (.call (.attr (.name n!"self") n!"write_int_32") (.arg (.attr (.name n!"self") n!"proportion") .argNil)) (.arg (.call (.attr (.name n!"self") n!"write_int_32") (.arg (.attr (.name n!"self") n!"terrain") .argNil)) (.arg (.call (.attr (.name n!"self") n!"write_int_32") (.arg (.attr (.name n!"self") n!"clump_count") .argNil)) (.arg (.call (.attr (.name n!"self") n!"write_int_32") (.arg (.attr (.name n!"self") n!"edge_spacing") .argNil)) (.arg (.call (.attr (.name n!"self") n!"write_int_32") (.arg (.attr (.name n!"self") n!"placement_terrain") .argNil)) (.arg (.call (.attr (.name n!"self") n!"write_int_32") (.arg (.attr (.name n!"self") n!"clumpiness") .argNil)) .argNil))))))) .argNil)))

/-- `class MapTerrain` — `/repo/src/genieutils/randommaps.py:60-87`. -/
def MapTerrain.src : Cls where
  name := n!"MapTerrain"
  module := n!"randommaps"
  base := n!"GenieClass"
  dataclass := true
  fields := [(n!"proportion", .argNil), (n!"terrain", .argNil), (n!"clump_count", .argNil), (n!"edge_spacing", .argNil), (n!"placement_terrain", .argNil), (n!"clumpiness", .argNil)]
  vars := []
  funs := [MapTerrain.src_from_bytes, MapTerrain.src_to_bytes]

/-- `MapLand.from_bytes` — `/repo/src/genieutils/randommaps.py:109-126`. -/
def MapLand.src_from_bytes : Fun where
  name := n!"from_bytes"
  kind := .classMethod
  params := [(n!"cls", .argNil), (n!"content", .argNil)]
  body :=
    (.ret (.call (.name n!"cls") (.kw n!"land_id" (.call (.attr (.name n!"content") n!"read_int_32") .argNil) (.kw n!"terrain" (.call (.attr (.name n!"content") n!"read_int_32") (.kw n!"signed" (.bool false) .argNil)) (.kw n!"land_spacing" (.call (.attr (.name n!"content") n!"read_int_32") .argNil) (.kw n!"base_size" (.call (.attr (.name n!"content") n!"read_int_32") .argNil) (.kw n!"zone" (.call (.attr (.name n!"content") n!"read_int_8") .argNil) (.kw n!"placement_type" (.call (.attr (.name n!"content") n!"read_int_8") .argNil) (.kw n!"padding_1" (.call (.attr (.name n!"content") n!"read_int_16") .argNil) (.kw n!"base_x" (.call (.attr (.name n!"content") n!"read_int_32") .argNil) (.kw n!"base_y" (.call (.attr (.name n!"content") n!"read_int_32") .argNil) (.kw n!"land_proportion" (.call (.attr (.name n!"content") n!"read_int_8") .argNil) (.kw n!"by_player_flag" (.call (.attr (.name n!"content") n!"read_int_8") .argNil) (.kw n!"padding_2" (.call (.attr (.name n!"content") n!"read_int_16") .argNil) (.kw n!"start_area_radius" (.call (.attr (.name n!"content") n!"read_int_32") .argNil) (.kw n!"terrain_edge_fade" (.call (.attr (.name n!"content") n!"read_int_32") .argNil) (.kw n!"clumpiness" (.call (.attr (.name n!"content") n!"read_int_32") .argNil) .argNil)))))))))))))))))

/-- `MapLand.to_bytes` — `/repo/src/genieutils/randommaps.py:128-145`. -/
def MapLand.src_to_bytes : Fun where
  name := n!"to_bytes"
  kind := .method
  params := [(n!"self", .argNil), (n!"version", .argNil)]
  body :=
    (.ret (.call (.attr (.bytes []) n!"join") (.arg (.list (.arg (.call (.attr (.name n!"self") n!"write_int_32") (.arg (.attr (.name n!"self") n!"land_id") .argNil)) (.arg (.call (.attr (.name n!"self") n!"write_int_32") (.arg (.attr (.name n!"self") n!"terrain") (.kw n!"signed" (.bool false) .argNil))) (.arg (.call (.attr (.name n!"self") n!"write_int_32") (.arg (.attr (.name n!"self") n!"land_spacing") .argNil)) (.arg (.call (.attr (.name n!"self") n!"write_int_32") (.arg (.attr (.name n!"self") n!"base_size") .argNil)) (.arg (.call (.attr (.name n!"self") n!"write_int_8") (.arg (.attr (.name n!"self") n!"zone") .argNil)) (.arg (.call (.attr (.name n!"self") n!"write_int_8") (.arg (.attr (.name n!"self") n!"placement_type") .argNil)) (.arg (.call (.attr (.name n!"self") n!"write_int_16") (.arg (.attr (.name n!"self") n!"padding_1") .argNil)) (.arg (.call (.attr (.name n!"self") n!"write_int_32") (.arg (.attr (.name n!"self") n!"base_x") .argNil)) (.arg (.call (.attr (.name n!"self") n!"write_int_32") (.arg (.attr (.name n!"self") n!"base_y") .argNil)) (.arg (.call (.attr (.name n!"self") n!"write_int_8") (.arg (.attr (.name n!"self") n!"land_proportion") .argNil)) (.arg (.call (.attr (.name n!"self") n!"write_int_8") (.arg (.attr (.name n!"self") n!"by_player_flag") .argNil)) (.arg (.call (.attr (.name n!"self") n!"write_int_16") (.arg (.attr (.name n!"self") n!"padding_2") .argNil)) (.arg (.call (.attr (.name n!"self") n!"write_int_32") (.arg (.attr (.name n!"self") n!"start_area_radius") .argNil)) (.arg (.call (.attr (.name n!"self") n!"write_int_32") (.arg (.attr (.name n!"self") n!"terrain_edge_fade") .argNil)) (.arg (.call (.attr (.name n!"self") n!"write_int_32") (.arg (.attr (.name n!"self") n!"clumpiness") .argNil)) .argNil)))))))))))))))) .argNil)))

/-- `class MapLand` — `/repo/src/genieutils/randommaps.py:91-145`. -/
def MapLand.src : Cls where
  name := n!"MapLand"
  module := n!"randommaps"
  base := n!"GenieClass"
  dataclass := true
  fields := [(n!"land_id", .argNil), (n!"terrain", .argNil), (n!"land_spacing", .argNil), (n!"base_size", .argNil), (n!"zone", .argNil), (n!"placement_type", .argNil), (n!"padding_1", .argNil), (n!"base_x", .argNil), (n!"base_y", .argNil), (n!"land_proportion", .argNil), (n!"by_player_flag", .argNil), (n!"padding_2", .argNil), (n!"start_area_radius", .argNil), (n!"terrain_edge_fade", .argNil), (n!"clumpiness", .argNil)]
  vars := []
  funs := [MapLand.src_from_bytes, MapLand.src_to_bytes]

/-- `MapElevation.from_bytes` — `/repo/src/genieutils/randommaps.py:158-166`. -/
def MapElevation.src_from_bytes : Fun where
  name := n!"from_bytes"
  kind := .classMethod
  params := [(n!"cls", .argNil), (n!"content", .argNil)]
  body :=
    (.ret (.call (.name n!"cls") (.kw n!"proportion" (.call (.attr (.name n!"content") n!"read_int_32") .argNil) (.kw n!"terrain" (.call (.attr (.name n!"content") n!"read_int_32") .argNil) (.kw n!"clump_count" (.call (.attr (.name n!"content") n!"read_int_32") .argNil) (.kw n!"base_terrain" (.call (.attr (.name n!"content") n!"read_int_32") .argNil) (.kw n!"base_elevation" (.call (.attr (.name n!"content") n!"read_int_32") .argNil) (.kw n!"tile_spacing" (.call (.attr (.name n!"content") n!"read_int_32") .argNil) .argNil))))))))

/-- `MapElevation.to_bytes` — `/repo/src/genieutils/randommaps.py:168-176`. -/
def MapElevation.src_to_bytes : Fun where
  name := n!"to_bytes"
  kind := .method
  params := [(n!"self", .argNil), (n!"version", .argNil)]
  body :=
    (.ret (.call (.attr (.bytes []) n!"join") (.arg (.list (.arg (.call (.attr (.name n!"self") n!"write_int_32") (.arg (.attr (.name n!"self") n!"proportion") .argNil)) (.arg (.call (.attr (.name n!"self") n!"write_int_32") (.arg (.attr (.name n!"self") n!"terrain") .argNil)) (.arg (.call (.attr (.name n!"self") n!"write_int_32") (.arg (.attr (.name n!"self") n!"clump_count") .argNil)) (.arg (.call (.attr (.name n!"self") n!"write_int_32") (.arg (.attr (.name n!"self") n!"base_terrain") .argNil)) (.arg (.call (.attr (.name n!"self") n!"write_int_32") (.arg (.attr (.name n!"self") n!"base_elevation") .argNil)) (.arg (.call (.attr (.name n!"self") n!"write_int_32") (.arg (.attr (.name n!"self") n!"tile_spacing") .argNil)) .argNil))))))) .argNil)))

/-- `class MapElevation` — `/repo/src/genieutils/randommaps.py:149-176`. -/
def MapElevation.src : Cls where
  name := n!"MapElevation"
  module := n!"randommaps"
  base := n!"GenieClass"
  dataclass := true
  fields := [(n!"proportion", .argNil), (n!"terrain", .argNil), (n!"clump_count", .argNil), (n!"base_terrain", .argNil), (n!"base_elevation", .argNil), (n!"tile_spacing", .argNil)]
  vars := []
  funs := [MapElevation.src_from_bytes, MapElevation.src_to_bytes]

/-- `MapInfo.from_bytes` — `/repo/src/genieutils/randommaps.py:205-251`. -/
def MapInfo.src_from_bytes : Fun where
  name := n!"from_bytes"
  kind := .classMethod
  params := [(n!"cls", .argNil), (n!"content", .argNil)]
  body :=
    (.assign n!"map_id" (.call (.attr (.name n!"content") n!"read_int_32") .argNil)
    (.assign n!"border_south_west" (.call (.attr (.name n!"content") n!"read_int_32") .argNil)
    (.assign n!"border_north_west" (.call (.attr (.name n!"content") n!"read_int_32") .argNil)
    (.assign n!"border_north_east" (.call (.attr (.name n!"content") n!"read_int_32") .argNil)
    (.assign n!"border_south_east" (.call (.attr (.name n!"content") n!"read_int_32") .argNil)
    (.assign n!"border_usage" (.call (.attr (.name n!"content") n!"read_int_32") .argNil)
    (.assign n!"water_shape" (.call (.attr (.name n!"content") n!"read_int_32") .argNil)
    (.assign n!"base_terrain" (.call (.attr (.name n!"content") n!"read_int_32") .argNil)
    (.assign n!"land_coverage" (.call (.attr (.name n!"content") n!"read_int_32") .argNil)
    (.assign n!"unused_id" (.call (.attr (.name n!"content") n!"read_int_32") .argNil)
    (.assign n!"map_lands_size" (.call (.attr (.name n!"content") n!"read_int_32") (.kw n!"signed" (.bool false) .argNil))
    (.assign n!"map_lands_ptr" (.call (.attr (.name n!"content") n!"read_int_32") .argNil)
    (.assign n!"map_lands" (.call (.attr (.name n!"content") n!"read_class_array") (.arg (.name n!"MapLand") (.arg (.name n!"map_lands_size") .argNil)))
    (.assign n!"map_terrains_size" (.call (.attr (.name n!"content") n!"read_int_32") (.kw n!"signed" (.bool false) .argNil))
    (.assign n!"map_terrains_ptr" (.call (.attr (.name n!"content") n!"read_int_32") .argNil)
    (.assign n!"map_terrains" (.call (.attr (.name n!"content") n!"read_class_array") (.arg (.name n!"MapTerrain") (.arg (.name n!"map_terrains_size") .argNil)))
    (.assign n!"map_units_size" (.call (.attr (.name n!"content") n!"read_int_32") (.kw n!"signed" (.bool false) .argNil))
    (.assign n!"map_units_ptr" (.call (.attr (.name n!"content") n!"read_int_32") .argNil)
    (.assign n!"map_units" (.call (.attr (.name n!"content") n!"read_class_array") (.arg (.name n!"MapUnit") (.arg (.name n!"map_units_size") .argNil)))
    (.assign n!"map_elevations_size" (.call (.attr (.name n!"content") n!"read_int_32") (.kw n!"signed" (.bool false) .argNil))
    (.assign n!"map_elevations_ptr" (.call (.attr (.name n!"content") n!"read_int_32") .argNil)
    (.assign n!"map_elevations" (.call (.attr (.name n!"content") n!"read_class_array") (.arg (.name n!"MapElevation") (.arg (.name n!"map_elevations_size") .argNil)))
    (.ret (.call (.name n!"cls") (.kw n!"map_id" (.name n!"map_id") (.kw n!"border_south_west" (.name n!"border_south_west") (.kw n!"border_north_west" (.name n!"border_north_west") (.kw n!"border_north_east" (.name n!"border_north_east") (.kw n!"border_south_east" (.name n!"border_south_east") (.kw n!"border_usage" (.name n!"border_usage") (.kw n!"water_shape" (.name n!"water_shape") (.kw n!"base_terrain" (.name n!"base_terrain") (.kw n!"land_coverage" (.name n!"land_coverage") (.kw n!"unused_id" (.name n!"unused_id") (.kw n!"map_lands_size" (.name n!"map_lands_size") (.kw n!"map_lands_ptr" (.name n!"map_lands_ptr") (.kw n!"map_lands" (.name n!"map_lands") (.kw n!"map_terrains_size" (.name n!"map_terrains_size") (.kw n!"map_terrains_ptr" (.name n!"map_terrains_ptr") (.kw n!"map_terrains" (.name n!"map_terrains") (.kw n!"map_units_size" (.name n!"map_units_size") (.kw n!"map_units_ptr" (.name n!"map_units_ptr") (.kw n!"map_units" (.name n!"map_units") (.kw n!"map_elevations_size" (.name n!"map_elevations_size") (.kw n!"map_elevations_ptr" (.name n!"map_elevations_ptr") (.kw n!"map_elevations" (.name n!"map_elevations") .argNil))))))))))))))))))))))))))))))))))))))))))))))

/-- `MapInfo.to_bytes` — `/repo/src/genieutils/randommaps.py:253-277`. -/
def MapInfo.src_to_bytes : Fun where
  name := n!"to_bytes"
  kind := .method
  params := [(n!"self", .argNil), (n!"version", .argNil)]
  body :=
    (.ret (.call (.attr (.bytes []) n!"join") (.arg (.list (.arg (.call (.attr (.name n!"self") n!"write_int_32") (.arg (.attr (.name n!"self") n!"map_id") .argNil)) (.arg (.call (.attr (.name n!"self") n!"write_int_32") (.arg (.attr (.name n!"self") n!"border_south_west") .argNil)) (.arg (.call (.attr (.name n!"self") n!"write_int_32") (.arg (.attr (.name n!"self") n!"border_north_west") .argNil)) (.arg (.call (.attr (.name n!"self") n!"write_int_32") (.arg (.attr (.name n!"self") n!"border_north_east") .argNil)) (.arg (.call (.attr (.name n!"self") n!"write_int_32") (.arg (.attr (.name n!"self") n!"border_south_east") .argNil)) (.arg (.call (.attr (.name n!"self") n!"write_int_32") (.arg (.attr (.name n!"self") n!"border_usage") .argNil)) (.arg (.call (.attr (.name n!"self") n!"write_int_32") (.arg (.attr (.name n!"self") n!"water_shape") .argNil)) (.arg (.call (.attr (.name n!"self") n!"write_int_32") (.arg (.attr (.name n!"self") n!"base_terrain") .argNil)) (.arg (.call (.attr (.name n!"self") n!"write_int_32") (.arg (.attr (.name n!"self") n!"land_coverage") .argNil)) (.arg (.call (.attr (.name n!"self") n!"write_int_32") (.arg (.attr (.name n!"self") n!"unused_id") .argNil)) (.arg (.call (.attr (.name n!"self") n!"write_int_32") (.arg (.attr (.name n!"self") n!"map_lands_size") (.kw n!"signed" (.bool false) .argNil))) (.arg (.call (.attr (.name n!"self") n!"write_int_32") (.arg (.attr (.name n!"self") n!"map_lands_ptr") .argNil)) (.arg (.call (.attr (.name n!"self") n!"write_class_array") (.arg (.attr (.name n!"self") n!"map_lands") (.arg (.name n!"version") .argNil))) (.arg (.call (.attr (.name n!"self") n!"write_int_32") (.arg (.attr (.name n!"self") n!"map_terrains_size") (.kw n!"signed" (.bool false) .argNil))) (.arg (.call (.attr (.name n!"self") n!"write_int_32") (.arg (.attr (.name n!"self") n!"map_terrains_ptr") .argNil)) (.arg (.call (.attr (.name n!"self") n!"write_class_array") (.arg (.attr (.name n!"self") n!"map_terrains") (.arg (.name n!"version") .argNil))) (.arg (.call (.attr (.name n!"self") n!"write_int_32") (.arg (.attr (.name n!"self") n!"map_units_size") (.kw n!"signed" (.bool false) .argNil))) (.arg (.call (.attr (.name n!"self") n!"write_int_32") (.arg (.attr (.name n!"self") n!"map_units_ptr") .argNil)) (.arg (.call (.attr (.name n!"self") n!"write_class_array") (.arg (.attr (.name n!"self") n!"map_units") (.arg (.name n!"version") .argNil))) (.arg (.call (.attr (.name n!"self") n!"write_int_32") (.arg (.attr (.name n!"self") n!"map_elevations_size") (.kw n!"signed" (.bool false) .argNil))) (.arg (.call (.attr (.name n!"self") n!"write_int_32") (.arg (.attr (.name n!"self") n!"map_elevations_ptr") .argNil)) (.arg (.call (.attr (.name n!"self") n!"write_class_array") (.arg (.attr (.name n!"self") n!"map_elevations") (.arg (.name n!"version") .argNil))) .argNil))))))))))))))))))))))) .argNil)))

/-- `class MapInfo` — `/repo/src/genieutils/randommaps.py:180-277`. -/
def MapInfo.src : Cls where
  name := n!"MapInfo"
  module := n!"randommaps"
  base := n!"GenieClass"
  dataclass := true
  fields := [(n!"map_id", .argNil), (n!"border_south_west", .argNil), (n!"border_north_west", .argNil), (n!"border_north_east", .argNil), (n!"border_south_east", .argNil), (n!"border_usage", .argNil), (n!"water_shape", .argNil), (n!"base_terrain", .argNil), (n!"land_coverage", .argNil), (n!"unused_id", .argNil), (n!"map_lands_size", .argNil), (n!"map_lands_ptr", .argNil), (n!"map_lands", .argNil), (n!"map_terrains_size", .argNil), (n!"map_terrains_ptr", .argNil), (n!"map_terrains", .argNil), (n!"map_units_size", .argNil), (n!"map_units_ptr", .argNil), (n!"map_units", .argNil), (n!"map_elevations_size", .argNil), (n!"map_elevations_ptr", .argNil), (n!"map_elevations", .argNil)]
  vars := []
  funs := [MapInfo.src_from_bytes, MapInfo.src_to_bytes]

/-- `RandomMaps.from_bytes` — `/repo/src/genieutils/randommaps.py:287-296`. -/
def RandomMaps.src_from_bytes : Fun where
  name := n!"from_bytes"
  kind := .classMethod
  params := [(n!"cls", .argNil), (n!"content", .argNil)]
  body :=
    (.assign n!"random_map_count" (.call (.attr (.name n!"content") n!"read_int_32") (.kw n!"signed" (.bool false) .argNil))
    (.assign n!"random_maps_ptr" (.call (.attr (.name n!"content") n!"read_int_32") .argNil)
    (.assign n!"map_info_1" (.call (.attr (.name n!"content") n!"read_class_array") (.arg (.name n!"MapInfo") (.arg (.name n!"random_map_count") .argNil)))
    (.assign n!"map_info_2" (.call (.attr (.name n!"content") n!"read_class_array") (.arg (.name n!"MapInfo") (.arg (.name n!"random_map_count") .argNil)))
    (.ret (.call (.name n!"cls") (.kw n!"random_maps_ptr" (.name n!"random_maps_ptr") (.kw n!"map_info_1" (.name n!"map_info_1") (.kw n!"map_info_2" (.name n!"map_info_2") .argNil)))))))))

/-- `RandomMaps.to_bytes` — `/repo/src/genieutils/randommaps.py:298-305`. -/
def RandomMaps.src_to_bytes : Fun where
  name := n!"to_bytes"
  kind := .method
  params := [(n!"self", .argNil), (n!"version", .argNil)]
  body :=
    (.assert (.compare (.call (.name n!"len") (.arg (.attr (.name n!"self") n!"map_info_1") .argNil)) (.cmp .eq (.call (.name n!"len") (.arg (.attr (.name n!"self") n!"map_info_2") .argNil)) .cmpNil))
    (.ret (.call (.attr (.bytes []) n!"join") (.arg (.list (.arg (.call (.attr (.name n!"self") n!"write_int_32") (.arg (.call (.name n!"len") (.arg (.attr (.name n!"self") n!"map_info_1") .argNil)) (.kw n!"signed" (.bool false) .argNil))) (.arg (.call (.attr (.name n!"self") n!"write_int_32") (.arg (.attr (.name n!"self") n!"random_maps_ptr") .argNil)) (.arg (.call (.attr (.name n!"self") n!"write_class_array") (.arg (.attr (.name n!"self") n!"map_info_1") (.arg (.name n!"version") .argNil))) (.arg (.call (.attr (.name n!"self") n!"write_class_array") (.arg (.attr (.name n!"self") n!"map_info_2") (.arg (.name n!"version") .argNil))) .argNil))))) .argNil))))

/-- `class RandomMaps` — `/repo/src/genieutils/randommaps.py:281-305`. -/
def RandomMaps.src : Cls where
  name := n!"RandomMaps"
  module := n!"randommaps"
  base := n!"GenieClass"
  dataclass := true
  fields := [(n!"random_maps_ptr", .argNil), (n!"map_info_1", .argNil), (n!"map_info_2", .argNil)]
  vars := []
  funs := [RandomMaps.src_from_bytes, RandomMaps.src_to_bytes]

/-- The names of the module `/repo/src/genieutils/randommaps.py`. -/
def module_randommaps : Module where
  name := n!"randommaps"
  globals := [
    (n!"dataclass", .lib),
    (n!"ByteHandler", .from_ n!"common"),
    (n!"GenieClass", .from_ n!"common"),
    (n!"Version", .from_ n!"versions"),
    (n!"MapUnit", .cls),
    (n!"MapTerrain", .cls),
    (n!"MapLand", .cls),
    (n!"MapElevation", .cls),
    (n!"MapInfo", .cls),
    (n!"RandomMaps", .cls)]

/-- `ResearchResourceCost.from_bytes` — `/repo/src/genieutils/tech.py:14-19`. -/
def ResearchResourceCost.src_from_bytes : Fun where
  name := n!"from_bytes"
  kind := .classMethod
  params := [(n!"cls", .argNil), (n!"content", .argNil)]
  body :=
    (.ret (.call (.name n!"cls") (.kw n!"type" (.call (.attr (.name n!"content") n!"read_int_16") .argNil) (.kw n!"amount" (.call (.attr (.name n!"content") n!"read_int_16") .argNil) (.kw n!"flag" (.call (.attr (.name n!"content") n!"read_int_8") .argNil) .argNil)))))

/-- `ResearchResourceCost.to_bytes` — `/repo/src/genieutils/tech.py:21-26`. -/
def ResearchResourceCost.src_to_bytes : Fun where
  name := n!"to_bytes"
  kind := .method
  params := [(n!"self", .argNil), (n!"version", .argNil)]
  body :=
    (.ret (.call (.attr (.bytes []) n!"join") (.arg (.list (.arg (.call (.attr (.name n!"self") n!"write_int_16") (.arg (.attr (.name n!"self") n!"type") .argNil)) (.arg (.call (.attr (.name n!"self") n!"write_int_16") (.arg (.attr (.name n!"self") n!"amount") .argNil)) (.arg (.call (.attr (.name n!"self") n!"write_int_8") (.arg (.attr (.name n!"self") n!"flag") .argNil)) .argNil)))) .argNil)))

/-- `class ResearchResourceCost` — `/repo/src/genieutils/tech.py:8-26`. -/
def ResearchResourceCost.src : Cls where
  name := n!"ResearchResourceCost"
  module := n!"tech"
  base := n!"GenieClass"
  dataclass := true
  fields := [(n!"type", .argNil), (n!"amount", .argNil), (n!"flag", .argNil)]
  vars := []
  funs := [ResearchResourceCost.src_from_bytes, ResearchResourceCost.src_to_bytes]

/-- `ResearchLocation.from_bytes` — `/repo/src/genieutils/tech.py:37-43`. -/
def ResearchLocation.src_from_bytes : Fun where
  name := n!"from_bytes"
  kind := .classMethod
  params := [(n!"cls", .argNil), (n!"content", .argNil)]
  body :=
    (.ret (.call (.name n!"cls") (.kw n!"location_id" (.call (.attr (.name n!"content") n!"read_int_16") .argNil) (.kw n!"research_time" (.call (.attr (.name n!"content") n!"read_int_16") .argNil) (.kw n!"button_id" (.call (.attr (.name n!"content") n!"read_int_8") .argNil) (.kw n!"hot_key_id" (.call (.attr (.name n!"content") n!"read_int_32") .argNil) .argNil))))))

/-- `ResearchLocation.to_bytes` — `/repo/src/genieutils/tech.py:45-51`. -/
def ResearchLocation.src_to_bytes : Fun where
  name := n!"to_bytes"
  kind := .method
  params := [(n!"self", .argNil), (n!"version", .argNil)]
  body :=
    (.ret (.call (.attr (.bytes []) n!"join") (.arg (.list (.arg (.call (.attr (.name n!"self") n!"write_int_16") (.arg (.attr (.name n!"self") n!"location_id") .argNil)) (.arg (.call (.attr (.name n!"self") n!"write_int_16") (.arg (.attr (.name n!"self") n!"research_time") .argNil)) (.arg (.call (.attr (.name n!"self") n!"write_int_8") (.arg (.attr (.name n!"self") n!"button_id") .argNil)) (.arg (.call (.attr (.name n!"self") n!"write_int_32") (.arg (.attr (.name n!"self") n!"hot_key_id") .argNil)) .argNil))))) .argNil)))

/-- `class ResearchLocation` — `/repo/src/genieutils/tech.py:30-51`. -/
def ResearchLocation.src : Cls where
  name := n!"ResearchLocation"
  module := n!"tech"
  base := n!"GenieClass"
  dataclass := true
  fields := [(n!"location_id", .argNil), (n!"research_time", .argNil), (n!"button_id", .argNil), (n!"hot_key_id", .argNil)]
  vars := []
  funs := [ResearchLocation.src_from_bytes, ResearchLocation.src_to_bytes]

/-- `Tech.from_bytes` — `/repo/src/genieutils/tech.py:73-76`. -/
def Tech.src_from_bytes : Fun where
  name := n!"from_bytes"
  kind := .classMethod
  params := [(n!"cls", .argNil), (n!"content", .argNil)]
  body :=
    (.ite (.compare (.attr (.name n!"content") n!"version") (.cmp .ge (.attr (.name n!"Version") n!"VER_88") .cmpNil))
        (.ret (.call (.attr (.name n!"cls") n!"from_bytes_88") (.arg (.name n!"content") .argNil)))
        .done
    (.ret (.call (.attr (.name n!"cls") n!"from_bytes_84") (.arg (.name n!"content") .argNil))))

/-- `Tech.from_bytes_84` — `/repo/src/genieutils/tech.py:79-120`. -/
def Tech.src_from_bytes_84 : Fun where
  name := n!"from_bytes_84"
  kind := .classMethod
  params := [(n!"cls", .argNil), (n!"content", .argNil)]
  body :=
    (.assign n!"required_techs" (.call (.attr (.name n!"content") n!"read_int_16_array_6") .argNil)
    (.assign n!"resource_costs" (.call (.attr (.name n!"content") n!"read_class_array_3") (.arg (.name n!"ResearchResourceCost") .argNil))
    (.assign n!"required_tech_count" (.call (.attr (.name n!"content") n!"read_int_16") .argNil)
    (.assign n!"civ" (.call (.attr (.name n!"content") n!"read_int_16") .argNil)
    (.assign n!"full_tech_mode" (.call (.attr (.name n!"content") n!"read_int_16") .argNil)
    (.assign n!"research_location" (.call (.attr (.name n!"content") n!"read_int_16") .argNil)
    (.assign n!"language_dll_name" (.call (.attr (.name n!"content") n!"read_int_32") .argNil)
    (.assign n!"language_dll_description" (.call (.attr (.name n!"content") n!"read_int_32") .argNil)
    (.assign n!"research_time" (.call (.attr (.name n!"content") n!"read_int_16") .argNil)
    (.assign n!"effect_id" (.call (.attr (.name n!"content") n!"read_int_16") .argNil)
    (.assign n!"type" (.call (.attr (.name n!"content") n!"read_int_16") .argNil)
    (.assign n!"icon_id" (.call (.attr (.name n!"content") n!"read_int_16") .argNil)
    (.assign n!"button_id" (.call (.attr (.name n!"content") n!"read_int_8") .argNil)
    (.assign n!"language_dll_help" (.call (.attr (.name n!"content") n!"read_int_32") .argNil)
    (.assign n!"language_dll_tech_tree" (.call (.attr (.name n!"content") n!"read_int_32") .argNil)
    (.assign n!"hot_key" (.call (.attr (.name n!"content") n!"read_int_32") .argNil)
    (.assign n!"name" (.call (.attr (.name n!"content") n!"read_debug_string") .argNil)
    (.assign n!"repeatable" (.call (.attr (.name n!"content") n!"read_int_8") .argNil)
    (.assign n!"research_locations" (.list (.arg (.call (.name n!"ResearchLocation") (.kw n!"button_id" (.name n!"button_id") (.kw n!"research_time" (.name n!"research_time") (.kw n!"hot_key_id" (.name n!"hot_key") (.kw n!"location_id" (.name n!"research_location") .argNil))))) .argNil))
    (.ret (.call (.name n!"cls") (.kw n!"required_techs" (.name n!"required_techs") (.kw n!"resource_costs" (.name n!"resource_costs") (.kw n!"required_tech_count" (.name n!"required_tech_count") (.kw n!"civ" (.name n!"civ") (.kw n!"full_tech_mode" (.name n!"full_tech_mode") (.kw n!"language_dll_name" (.name n!"language_dll_name") (.kw n!"language_dll_description" (.name n!"language_dll_description") (.kw n!"effect_id" (.name n!"effect_id") (.kw n!"type" (.name n!"type") (.kw n!"icon_id" (.name n!"icon_id") (.kw n!"language_dll_help" (.name n!"language_dll_help") (.kw n!"language_dll_tech_tree" (.name n!"language_dll_tech_tree") (.kw n!"name" (.name n!"name") (.kw n!"repeatable" (.name n!"repeatable") (.kw n!"research_locations" (.name n!"research_locations") .argNil))))))))))))))))))))))))))))))))))))

/-- `Tech.from_bytes_88` — `/repo/src/genieutils/tech.py:123-156`. -/
def Tech.src_from_bytes_88 : Fun where
  name := n!"from_bytes_88"
  kind := .classMethod
  params := [(n!"cls", .argNil), (n!"content", .argNil)]
  body :=
    (.assign n!"required_techs" (.call (.attr (.name n!"content") n!"read_int_16_array_6") .argNil)
    (.assign n!"resource_costs" (.call (.attr (.name n!"content") n!"read_class_array_3") (.arg (.name n!"ResearchResourceCost") .argNil))
    (.assign n!"required_tech_count" (.call (.attr (.name n!"content") n!"read_int_16") .argNil)
    (.assign n!"civ" (.call (.attr (.name n!"content") n!"read_int_16") .argNil)
    (.assign n!"full_tech_mode" (.call (.attr (.name n!"content") n!"read_int_16") .argNil)
    (.assign n!"language_dll_name" (.call (.attr (.name n!"content") n!"read_int_32") .argNil)
    (.assign n!"language_dll_description" (.call (.attr (.name n!"content") n!"read_int_32") .argNil)
    (.assign n!"effect_id" (.call (.attr (.name n!"content") n!"read_int_16") .argNil)
    (.assign n!"type" (.call (.attr (.name n!"content") n!"read_int_16") .argNil)
    (.assign n!"icon_id" (.call (.attr (.name n!"content") n!"read_int_16") .argNil)
    (.assign n!"language_dll_help" (.call (.attr (.name n!"content") n!"read_int_32") .argNil)
    (.assign n!"language_dll_tech_tree" (.call (.attr (.name n!"content") n!"read_int_32") .argNil)
    (.assign n!"name" (.call (.attr (.name n!"content") n!"read_debug_string") .argNil)
    (.assign n!"repeatable" (.call (.attr (.name n!"content") n!"read_int_8") .argNil)
    (.assign n!"research_location_count" (.call (.attr (.name n!"content") n!"read_int_16") .argNil)
    (.assign n!"research_locations" (.call (.attr (.name n!"content") n!"read_class_array") (.arg (.name n!"ResearchLocation") (.arg (.name n!"research_location_count") .argNil)))
    (.ret (.call (.name n!"cls") (.kw n!"required_techs" (.name n!"required_techs") (.kw n!"resource_costs" (.name n!"resource_costs") (.kw n!"required_tech_count" (.name n!"required_tech_count") (.kw n!"civ" (.name n!"civ") (.kw n!"full_tech_mode" (.name n!"full_tech_mode") (.kw n!"language_dll_name" (.name n!"language_dll_name") (.kw n!"language_dll_description" (.name n!"language_dll_description") (.kw n!"effect_id" (.name n!"effect_id") (.kw n!"type" (.name n!"type") (.kw n!"icon_id" (.name n!"icon_id") (.kw n!"language_dll_help" (.name n!"language_dll_help") (.kw n!"language_dll_tech_tree" (.name n!"language_dll_tech_tree") (.kw n!"name" (.name n!"name") (.kw n!"repeatable" (.name n!"repeatable") (.kw n!"research_locations" (.name n!"research_locations") .argNil)))))))))))))))))))))))))))))))))

/-- `Tech.to_bytes` — `/repo/src/genieutils/tech.py:158-161`. -/
def Tech.src_to_bytes : Fun where
  name := n!"to_bytes"
  kind := .method
  params := [(n!"self", .argNil), (n!"version", .argNil)]
  body :=
    (.ite (.compare (.name n!"version") (.cmp .ge (.attr (.name n!"Version") n!"VER_88") .cmpNil))
        (.ret (.call (.attr (.name n!"self") n!"to_bytes_88") (.arg (.name n!"version") .argNil)))
        .done
    (.ret (.call (.attr (.name n!"self") n!"to_bytes_84") (.arg (.name n!"version") .argNil))))

/-- `Tech.to_bytes_84` — `/repo/src/genieutils/tech.py:162-191`. -/
def Tech.src_to_bytes_84 : Fun where
  name := n!"to_bytes_84"
  kind := .method
  params := [(n!"self", .argNil), (n!"version", .argNil)]
  body :=
    (.assign n!"research_location" (.neg (.int 1))
    (.assign n!"research_time" (.int 0)
    (.assign n!"button_id" (.int 0)
    (.assign n!"hot_key" (.neg (.int 1))
    (.ite (.call (.name n!"len") (.arg (.attr (.name n!"self") n!"research_locations") .argNil))
        (.assign n!"research_location" (.attr (.index (.attr (.name n!"self") n!"research_locations") (.int 0)) n!"location_id")
        (.assign n!"research_time" (.attr (.index (.attr (.name n!"self") n!"research_locations") (.int 0)) n!"research_time")
        (.assign n!"button_id" (.attr (.index (.attr (.name n!"self") n!"research_locations") (.int 0)) n!"button_id")
        (.assign n!"hot_key" (.attr (.index (.attr (.name n!"self") n!"research_locations") (.int 0)) n!"hot_key_id")
        .done))))
        .done
    (.ret (.call (.attr (.bytes []) n!"join") (.arg (.list (.arg (.call (.attr (.name n!"self") n!"write_int_16_array") (.arg (.attr (.name n!"self") n!"required_techs") .argNil)) (.arg (.call (.attr (.name n!"self") n!"write_class_array") (.arg (.attr (.name n!"self") n!"resource_costs") (.arg (.name n!"version") .argNil))) (.arg (.call (.attr (.name n!"self") n!"write_int_16") (.arg (.attr (.name n!"self") n!"required_tech_count") .argNil)) (.arg (.call (.attr (.name n!"self") n!"write_int_16") (.arg (.attr (.name n!"self") n!"civ") .argNil)) (.arg (.call (.attr (.name n!"self") n!"write_int_16") (.arg (.attr (.name n!"self") n!"full_tech_mode") .argNil)) (.arg (.call (.attr (.name n!"self") n!"write_int_16") (.arg (.name n!"research_location") .argNil)) (.arg (.call (.attr (.name n!"self") n!"write_int_32") (.arg (.attr (.name n!"self") n!"language_dll_name") .argNil)) (.arg (.call (.attr (.name n!"self") n!"write_int_32") (.arg (.attr (.name n!"self") n!"language_dll_description") .argNil)) (.arg (.call (.attr (.name n!"self") n!"write_int_16") (.arg (.name n!"research_time") .argNil)) (.arg (.call (.attr (.name n!"self") n!"write_int_16") (.arg (.attr (.name n!"self") n!"effect_id") .argNil)) (.arg (.call (.attr (.name n!"self") n!"write_int_16") (.arg (.attr (.name n!"self") n!"type") .argNil)) (.arg (.call (.attr (.name n!"self") n!"write_int_16") (.arg (.attr (.name n!"self") n!"icon_id") .argNil)) (.arg (.call (.attr (.name n!"self") n!"write_int_8") (.arg (.name n!"button_id") .argNil)) (.arg (.call (.attr (.name n!"self") n!"write_int_32") (.arg (.attr (.name n!"self") n!"language_dll_help") .argNil)) (.arg (.call (.attr (.name n!"self") n!"write_int_32") (.arg (.attr (.name n!"self") n!"language_dll_tech_tree") .argNil)) (.arg (.call (.attr (.name n!"self") n!"write_int_32") (.arg (.name n!"hot_key") .argNil)) (.arg (.call (.attr (.name n!"self") n!"write_debug_string") (.arg (.attr (.name n!"self") n!"name") .argNil)) (.arg (.call (.attr (.name n!"self") n!"write_int_8") (.arg (.attr (.name n!"self") n!"repeatable") .argNil)) .argNil))))))))))))))))))) .argNil))))))))

/-- `Tech.to_bytes_88` — `/repo/src/genieutils/tech.py:193-211`. -/
def Tech.src_to_bytes_88 : Fun where
  name := n!"to_bytes_88"
  kind := .method
  params := [(n!"self", .argNil), (n!"version", .argNil)]
  body :=
    (.ret (.call (.attr (.bytes []) n!"join") (.arg (.list (.arg (.call (.attr (.name n!"self") n!"write_int_16_array") (.arg (.attr (.name n!"self") n!"required_techs") .argNil)) (.arg (.call (.attr (.name n!"self") n!"write_class_array") (.arg (.attr (.name n!"self") n!"resource_costs") (.arg (.name n!"version") .argNil))) (.arg (.call (.attr (.name n!"self") n!"write_int_16") (.arg (.attr (.name n!"self") n!"required_tech_count") .argNil)) (.arg (.call (.attr (.name n!"self") n!"write_int_16") (.arg (.attr (.name n!"self") n!"civ") .argNil)) (.arg (.call (.attr (.name n!"self") n!"write_int_16") (.arg (.attr (.name n!"self") n!"full_tech_mode") .argNil)) (.arg (.call (.attr (.name n!"self") n!"write_int_32") (.arg (.attr (.name n!"self") n!"language_dll_name") .argNil)) (.arg (.call (.attr (.name n!"self") n!"write_int_32") (.arg (.attr (.name n!"self") n!"language_dll_description") .argNil)) (.arg (.call (.attr (.name n!"self") n!"write_int_16") (.arg (.attr (.name n!"self") n!"effect_id") .argNil)) (.arg (.call (.attr (.name n!"self") n!"write_int_16") (.arg (.attr (.name n!"self") n!"type") .argNil)) (.arg (.call (.attr (.name n!"self") n!"write_int_16") (.arg (.attr (.name n!"self") n!"icon_id") .argNil)) (.arg (.call (.attr (.name n!"self") n!"write_int_32") (.arg (.attr (.name n!"self") n!"language_dll_help") .argNil)) (.arg (.call (.attr (.name n!"self") n!"write_int_32") (.arg (.attr (.name n!"self") n!"language_dll_tech_tree") .argNil)) (.arg (.call (.attr (.name n!"self") n!"write_debug_string") (.arg (.attr (.name n!"self") n!"name") .argNil)) (.arg (.call (.attr (.name n!"self") n!"write_int_8") (.arg (.attr (.name n!"self") n!"repeatable") .argNil)) (.arg (.call (.attr (.name n!"self") n!"write_int_16") (.arg (.call (.name n!"len") (.arg (.attr (.name n!"self") n!"research_locations") .argNil)) .argNil)) (.arg (.call (.attr (.name n!"self") n!"write_class_array") (.arg (.attr (.name n!"self") n!"research_locations") (.arg (.name n!"version") .argNil))) .argNil))))))))))))))))) .argNil)))

/-- `class Tech` — `/repo/src/genieutils/tech.py:55-211`. -/
def Tech.src : Cls where
  name := n!"Tech"
  module := n!"tech"
  base := n!"GenieClass"
  dataclass := true
  fields := [(n!"required_techs", .argNil), (n!"resource_costs", .argNil), (n!"required_tech_count", .argNil), (n!"civ", .argNil), (n!"full_tech_mode", .argNil), (n!"language_dll_name", .argNil), (n!"language_dll_description", .argNil), (n!"effect_id", .argNil), (n!"type", .argNil), (n!"icon_id", .argNil), (n!"language_dll_help", .argNil), (n!"language_dll_tech_tree", .argNil), (n!"name", .argNil), (n!"repeatable", .argNil), (n!"research_locations", .argNil)]
  vars := []
  funs := [Tech.src_from_bytes, Tech.src_from_bytes_84, Tech.src_from_bytes_88, Tech.src_to_bytes, Tech.src_to_bytes_84, Tech.src_to_bytes_88]

/-- The names of the module `/repo/src/genieutils/tech.py`. -/
def module_tech : Module where
  name := n!"tech"
  globals := [
    (n!"dataclass", .lib),
    (n!"ByteHandler", .from_ n!"common"),
    (n!"GenieClass", .from_ n!"common"),
    (n!"Version", .from_ n!"versions"),
    (n!"ResearchResourceCost", .cls),
    (n!"ResearchLocation", .cls),
    (n!"Tech", .cls)]

/-- `Common.from_bytes` — `/repo/src/genieutils/techtree.py:14-19`. -/
def Common.src_from_bytes : Fun where
  name := n!"from_bytes"
  kind := .classMethod
  params := [(n!"cls", .argNil), (n!"content", .argNil)]
  body :=
    (.ret (.call (.name n!"cls") (.kw n!"slots_used" (.call (.attr (.name n!"content") n!"read_int_32") .argNil) (.kw n!"unit_research" (.call (.attr (.name n!"content") n!"read_int_32_array_10") .argNil) (.kw n!"mode" (.call (.attr (.name n!"content") n!"read_int_32_array_10") .argNil) .argNil)))))

/-- `Common.to_bytes` — `/repo/src/genieutils/techtree.py:21-26`. -/
def Common.src_to_bytes : Fun where
  name := n!"to_bytes"
  kind := .method
  params := [(n!"self", .argNil), (n!"version", .argNil)]
  body :=
    (.ret (.call (.attr (.bytes []) n!"join") (.arg (.list (.arg (.call (.attr (.name n!"self") n!"write_int_32") (.arg (.attr (.name n!"self") n!"slots_used") .argNil)) (.arg (.call (.attr (.name n!"self") n!"write_int_32_array") (.arg (.attr (.name n!"self") n!"unit_research") .argNil)) (.arg (.call (.attr (.name n!"self") n!"write_int_32_array") (.arg (.attr (.name n!"self") n!"mode") .argNil)) .argNil)))) .argNil)))

/-- `class Common` — `/repo/src/genieutils/techtree.py:8-26`. -/
def Common.src : Cls where
  name := n!"Common"
  module := n!"techtree"
  base := n!"GenieClass"
  dataclass := true
  fields := [(n!"slots_used", .argNil), (n!"unit_research", .argNil), (n!"mode", .argNil)]
  vars := []
  funs := [Common.src_from_bytes, Common.src_to_bytes]

/-- `TechTreeAge.from_bytes` — `/repo/src/genieutils/techtree.py:44-71`. -/
def TechTreeAge.src_from_bytes : Fun where
  name := n!"from_bytes"
  kind := .classMethod
  params := [(n!"cls", .argNil), (n!"content", .argNil)]
  body :=
    (.assign n!"id_" (.call (.attr (.name n!"content") n!"read_int_32") .argNil)
    (.assign n!"status" (.call (.attr (.name n!"content") n!"read_int_8") .argNil)
    (.assign n!"buildings_count" (.call (.attr (.name n!"content") n!"read_int_8") .argNil)
    (.assign n!"buildings" (.call (.attr (.name n!"content") n!"read_int_32_array") (.arg (.name n!"buildings_count") .argNil))
    (.assign n!"units_count" (.call (.attr (.name n!"content") n!"read_int_8") .argNil)
    (.assign n!"units" (.call (.attr (.name n!"content") n!"read_int_32_array") (.arg (.name n!"units_count") .argNil))
    (.assign n!"techs_count" (.call (.attr (.name n!"content") n!"read_int_8") .argNil)
    (.assign n!"techs" (.call (.attr (.name n!"content") n!"read_int_32_array") (.arg (.name n!"techs_count") .argNil))
    (.assign n!"common" (.call (.attr (.name n!"content") n!"read_class") (.arg (.name n!"Common") .argNil))
    (.assign n!"num_building_levels" (.call (.attr (.name n!"content") n!"read_int_8") .argNil)
    (.assign n!"buildings_per_zone" (.call (.attr (.name n!"content") n!"read_int_8_array_10") .argNil)
    (.assign n!"group_length_per_zone" (.call (.attr (.name n!"content") n!"read_int_8_array_10") .argNil)
    (.assign n!"max_age_length" (.call (.attr (.name n!"content") n!"read_int_8") .argNil)
    (.assign n!"line_mode" (.call (.attr (.name n!"content") n!"read_int_32") .argNil)
    (.ret (.call (.name n!"cls") (.kw n!"id" (.name n!"id_") (.kw n!"status" (.name n!"status") (.kw n!"buildings" (.name n!"buildings") (.kw n!"units" (.name n!"units") (.kw n!"techs" (.name n!"techs") (.kw n!"common" (.name n!"common") (.kw n!"num_building_levels" (.name n!"num_building_levels") (.kw n!"buildings_per_zone" (.name n!"buildings_per_zone") (.kw n!"group_length_per_zone" (.name n!"group_length_per_zone") (.kw n!"max_age_length" (.name n!"max_age_length") (.kw n!"line_mode" (.name n!"line_mode") .argNil)))))))))))))))))))))))))))

/-- `TechTreeAge.to_bytes` — `/repo/src/genieutils/techtree.py:73-89`. -/
def TechTreeAge.src_to_bytes : Fun where
  name := n!"to_bytes"
  kind := .method
  params := [(n!"self", .argNil), (n!"version", .argNil)]
  body :=
    (.ret (.call (.attr (.bytes []) n!"join") (.arg (.list (.arg (.call (.attr (.name n!"self") n!"write_int_32") (.arg (.attr (.name n!"self") n!"id") .argNil)) (.arg (.call (.attr (.name n!"self") n!"write_int_8") (.arg (.attr (.name n!"self") n!"status") .argNil)) (.arg (.call (.attr (.name n!"self") n!"write_int_8") (.arg (.call (.name n!"len") (.arg (.attr (.name n!"self") n!"buildings") .argNil)) .argNil)) (.arg (.call (.attr (.name n!"self") n!"write_int_32_array") (.arg (.attr (.name n!"self") n!"buildings") .argNil)) (.arg (.call (.attr (.name n!"self") n!"write_int_8") (.arg (.call (.name n!"len") (.arg (.attr (.name n!"self") n!"units") .argNil)) .argNil)) (.arg (.call (.attr (.name n!"self") n!"write_int_32_array") (.arg (.attr (.name n!"self") n!"units") .argNil)) (.arg (.call (.attr (.name n!"self") n!"write_int_8") (.arg (.call (.name n!"len") (.arg (.attr (.name n!"self") n!"techs") .argNil)) .argNil)) (.arg (.call (.attr (.name n!"self") n!"write_int_32_array") (.arg (.attr (.name n!"self") n!"techs") .argNil)) (.arg (.call (.attr (.name n!"self") n!"write_class") (.arg (.attr (.name n!"self") n!"common") (.arg (.name n!"version") .argNil))) (.arg (.call (.attr (.name n!"self") n!"write_int_8") (.arg (.attr (.name n!"self") n!"num_building_levels") .argNil)) (.arg (.call (.attr (.name n!"self") n!"write_int_8_array") (.arg (.attr (.name n!"self") n!"buildings_per_zone") .argNil)) (.arg (.call (.attr (.name n!"self") n!"write_int_8_array") (.arg (.attr (.name n!"self") n!"group_length_per_zone") .argNil)) (.arg (.call (.attr (.name n!"self") n!"write_int_8") (.arg (.attr (.name n!"self") n!"max_age_length") .argNil)) (.arg (.call (.attr (.name n!"self") n!"write_int_32") (.arg (.attr (.name n!"self") n!"line_mode") .argNil)) .argNil))))))))))))))) .argNil)))

/-- `class TechTreeAge` — `/repo/src/genieutils/techtree.py:30-89`. -/
def TechTreeAge.src : Cls where
  name := n!"TechTreeAge"
  module := n!"techtree"
  base := n!"GenieClass"
  dataclass := true
  fields := [(n!"id", .argNil), (n!"status", .argNil), (n!"buildings", .argNil), (n!"units", .argNil), (n!"techs", .argNil), (n!"common", .argNil), (n!"num_building_levels", .argNil), (n!"buildings_per_zone", .argNil), (n!"group_length_per_zone", .argNil), (n!"max_age_length", .argNil), (n!"line_mode", .argNil)]
  vars := []
  funs := [TechTreeAge.src_from_bytes, TechTreeAge.src_to_bytes]

/-- `BuildingConnection.from_bytes` — `/repo/src/genieutils/techtree.py:107-134`. -/
def BuildingConnection.src_from_bytes : Fun where
  name := n!"from_bytes"
  kind := .classMethod
  params := [(n!"cls", .argNil), (n!"content", .argNil)]
  body :=
    (.assign n!"id_" (.call (.attr (.name n!"content") n!"read_int_32") .argNil)
    (.assign n!"status" (.call (.attr (.name n!"content") n!"read_int_8") .argNil)
    (.assign n!"buildings_count" (.call (.attr (.name n!"content") n!"read_int_8") .argNil)
    (.assign n!"buildings" (.call (.attr (.name n!"content") n!"read_int_32_array") (.arg (.name n!"buildings_count") .argNil))
    (.assign n!"units_count" (.call (.attr (.name n!"content") n!"read_int_8") .argNil)
    (.assign n!"units" (.call (.attr (.name n!"content") n!"read_int_32_array") (.arg (.name n!"units_count") .argNil))
    (.assign n!"techs_count" (.call (.attr (.name n!"content") n!"read_int_8") .argNil)
    (.assign n!"techs" (.call (.attr (.name n!"content") n!"read_int_32_array") (.arg (.name n!"techs_count") .argNil))
    (.assign n!"common" (.call (.attr (.name n!"content") n!"read_class") (.arg (.name n!"Common") .argNil))
    (.assign n!"location_in_age" (.call (.attr (.name n!"content") n!"read_int_8") .argNil)
    (.assign n!"units_techs_total" (.call (.attr (.name n!"content") n!"read_int_8_array_5") .argNil)
    (.assign n!"units_techs_first" (.call (.attr (.name n!"content") n!"read_int_8_array_5") .argNil)
    (.assign n!"line_mode" (.call (.attr (.name n!"content") n!"read_int_32") .argNil)
    (.assign n!"enabling_research" (.call (.attr (.name n!"content") n!"read_int_32") .argNil)
    (.ret (.call (.name n!"cls") (.kw n!"id" (.name n!"id_") (.kw n!"status" (.name n!"status") (.kw n!"buildings" (.name n!"buildings") (.kw n!"units" (.name n!"units") (.kw n!"techs" (.name n!"techs") (.kw n!"common" (.name n!"common") (.kw n!"location_in_age" (.name n!"location_in_age") (.kw n!"units_techs_total" (.name n!"units_techs_total") (.kw n!"units_techs_first" (.name n!"units_techs_first") (.kw n!"line_mode" (.name n!"line_mode") (.kw n!"enabling_research" (.name n!"enabling_research") .argNil)))))))))))))))))))))))))))

/-- `BuildingConnection.to_bytes` — `/repo/src/genieutils/techtree.py:136-152`. -/
def BuildingConnection.src_to_bytes : Fun where
  name := n!"to_bytes"
  kind := .method
  params := [(n!"self", .argNil), (n!"version", .argNil)]
  body :=
    (.ret (.call (.attr (.bytes []) n!"join") (.arg (.list (.arg (.call (.attr (.name n!"self") n!"write_int_32") (.arg (.attr (.name n!"self") n!"id") .argNil)) (.arg (.call (.attr (.name n!"self") n!"write_int_8") (.arg (.attr (.name n!"self") n!"status") .argNil)) (.arg (.call (.attr (.name n!"self") n!"write_int_8") (.arg (.call (.name n!"len") (.arg (.attr (.name n!"self") n!"buildings") .argNil)) .argNil)) (.arg (.call (.attr (.name n!"self") n!"write_int_32_array") (.arg (.attr (.name n!"self") n!"buildings") .argNil)) (.arg (.call (.attr (.name n!"self") n!"write_int_8") (.arg (.call (.name n!"len") (.arg (.attr (.name n!"self") n!"units") .argNil)) .argNil)) (.arg (.call (.attr (.name n!"self") n!"write_int_32_array") (.arg (.attr (.name n!"self") n!"units") .argNil)) (.arg (.call (.attr (.name n!"self") n!"write_int_8") (.arg (.call (.name n!"len") (.arg (.attr (.name n!"self") n!"techs") .argNil)) .argNil)) (.arg (.call (.attr (.name n!"self") n!"write_int_32_array") (.arg (.attr (.name n!"self") n!"techs") .argNil)) (.arg (.call (.attr (.name n!"self") n!"write_class") (.arg (.attr (.name n!"self") n!"common") (.arg (.name n!"version") .argNil))) (.arg (.call (.attr (.name n!"self") n!"write_int_8") (.arg (.attr (.name n!"self") n!"location_in_age") .argNil)) (.arg (.call (.attr (.name n!"self") n!"write_int_8_array") (.arg (.attr (.name n!"self") n!"units_techs_total") .argNil)) (.arg (.call (.attr (.name n!"self") n!"write_int_8_array") (.arg (.attr (.name n!"self") n!"units_techs_first") .argNil)) (.arg (.call (.attr (.name n!"self") n!"write_int_32") (.arg (.attr (.name n!"self") n!"line_mode") .argNil)) (.arg (.call (.attr (.name n!"self") n!"write_int_32") (.arg (.attr (.name n!"self") n!"enabling_research") .argNil)) .argNil))))))))))))))) .argNil)))

/-- `class BuildingConnection` — `/repo/src/genieutils/techtree.py:93-152`. -/
def BuildingConnection.src : Cls where
  name := n!"BuildingConnection"
  module := n!"techtree"
  base := n!"GenieClass"
  dataclass := true
  fields := [(n!"id", .argNil), (n!"status", .argNil), (n!"buildings", .argNil), (n!"units", .argNil), (n!"techs", .argNil), (n!"common", .argNil), (n!"location_in_age", .argNil), (n!"units_techs_total", .argNil), (n!"units_techs_first", .argNil), (n!"line_mode", .argNil), (n!"enabling_research", .argNil)]
  vars := []
  funs := [BuildingConnection.src_from_bytes, BuildingConnection.src_to_bytes]

/-- `UnitConnection.from_bytes` — `/repo/src/genieutils/techtree.py:169-192`. -/
def UnitConnection.src_from_bytes : Fun where
  name := n!"from_bytes"
  kind := .classMethod
  params := [(n!"cls", .argNil), (n!"content", .argNil)]
  body :=
    (.assign n!"id_" (.call (.attr (.name n!"content") n!"read_int_32") .argNil)
    (.assign n!"status" (.call (.attr (.name n!"content") n!"read_int_8") .argNil)
    (.assign n!"upper_building" (.call (.attr (.name n!"content") n!"read_int_32") .argNil)
    (.assign n!"common" (.call (.attr (.name n!"content") n!"read_class") (.arg (.name n!"Common") .argNil))
    (.assign n!"vertical_line" (.call (.attr (.name n!"content") n!"read_int_32") .argNil)
    (.assign n!"units_count" (.call (.attr (.name n!"content") n!"read_int_8") .argNil)
    (.assign n!"units" (.call (.attr (.name n!"content") n!"read_int_32_array") (.arg (.name n!"units_count") .argNil))
    (.assign n!"location_in_age" (.call (.attr (.name n!"content") n!"read_int_32") .argNil)
    (.assign n!"required_research" (.call (.attr (.name n!"content") n!"read_int_32") .argNil)
    (.assign n!"line_mode" (.call (.attr (.name n!"content") n!"read_int_32") .argNil)
    (.assign n!"enabling_research" (.call (.attr (.name n!"content") n!"read_int_32") .argNil)
    (.ret (.call (.name n!"cls") (.kw n!"id" (.name n!"id_") (.kw n!"status" (.name n!"status") (.kw n!"upper_building" (.name n!"upper_building") (.kw n!"common" (.name n!"common") (.kw n!"vertical_line" (.name n!"vertical_line") (.kw n!"units" (.name n!"units") (.kw n!"location_in_age" (.name n!"location_in_age") (.kw n!"required_research" (.name n!"required_research") (.kw n!"line_mode" (.name n!"line_mode") (.kw n!"enabling_research" (.name n!"enabling_research") .argNil)))))))))))))))))))))))

/-- `UnitConnection.to_bytes` — `/repo/src/genieutils/techtree.py:194-207`. -/
def UnitConnection.src_to_bytes : Fun where
  name := n!"to_bytes"
  kind := .method
  params := [(n!"self", .argNil), (n!"version", .argNil)]
  body :=
    (.ret (.call (.attr (.bytes []) n!"join") (.arg (.list (.arg (.call (.attr (.name n!"self") n!"write_int_32") (.arg (.attr (.name n!"self") n!"id") .argNil)) (.arg (.call (.attr (.name n!"self") n!"write_int_8") (.arg (.attr (.name n!"self") n!"status") .argNil)) (.arg (.call (.attr (.name n!"self") n!"write_int_32") (.arg (.attr (.name n!"self") n!"upper_building") .argNil)) (.arg (.call (.attr (.name n!"self") n!"write_class") (.arg (.attr (.name n!"self") n!"common") (.arg (.name n!"version") .argNil))) (.arg (.call (.attr (.name n!"self") n!"write_int_32") (.arg (.attr (.name n!"self") n!"vertical_line") .argNil)) (.arg (.call (.attr (.name n!"self") n!"write_int_8") (.arg (.call (.name n!"len") (.arg (.attr (.name n!"self") n!"units") .argNil)) .argNil)) (.arg (.call (.attr (.name n!"self") n!"write_int_32_array") (.arg (.attr (.name n!"self") n!"units") .argNil)) (.arg (.call (.attr (.name n!"self") n!"write_int_32") (.arg (.attr (.name n!"self") n!"location_in_age") .argNil)) (.arg (.call (.attr (.name n!"self") n!"write_int_32") (.arg (.attr (.name n!"self") n!"required_research") .argNil)) (.arg (.call (.attr (.name n!"self") n!"write_int_32") (.arg (.attr (.name n!"self") n!"line_mode") .argNil)) (.arg (.call (.attr (.name n!"self") n!"write_int_32") (.arg (.attr (.name n!"self") n!"enabling_research") .argNil)) .argNil)))))))))))) .argNil)))

/-- `class UnitConnection` — `/repo/src/genieutils/techtree.py:156-207`. -/
def UnitConnection.src : Cls where
  name := n!"UnitConnection"
  module := n!"techtree"
  base := n!"GenieClass"
  dataclass := true
  fields := [(n!"id", .argNil), (n!"status", .argNil), (n!"upper_building", .argNil), (n!"common", .argNil), (n!"vertical_line", .argNil), (n!"units", .argNil), (n!"location_in_age", .argNil), (n!"required_research", .argNil), (n!"line_mode", .argNil), (n!"enabling_research", .argNil)]
  vars := []
  funs := [UnitConnection.src_from_bytes, UnitConnection.src_to_bytes]

/-- `ResearchConnection.from_bytes` — `/repo/src/genieutils/techtree.py:224-249`. -/
def ResearchConnection.src_from_bytes : Fun where
  name := n!"from_bytes"
  kind := .classMethod
  params := [(n!"cls", .argNil), (n!"content", .argNil)]
  body :=
    (.assign n!"id_" (.call (.attr (.name n!"content") n!"read_int_32") .argNil)
    (.assign n!"status" (.call (.attr (.name n!"content") n!"read_int_8") .argNil)
    (.assign n!"upper_building" (.call (.attr (.name n!"content") n!"read_int_32") .argNil)
    (.assign n!"buildings_count" (.call (.attr (.name n!"content") n!"read_int_8") .argNil)
    (.assign n!"buildings" (.call (.attr (.name n!"content") n!"read_int_32_array") (.arg (.name n!"buildings_count") .argNil))
    (.assign n!"units_count" (.call (.attr (.name n!"content") n!"read_int_8") .argNil)
    (.assign n!"units" (.call (.attr (.name n!"content") n!"read_int_32_array") (.arg (.name n!"units_count") .argNil))
    (.assign n!"techs_count" (.call (.attr (.name n!"content") n!"read_int_8") .argNil)
    (.assign n!"techs" (.call (.attr (.name n!"content") n!"read_int_32_array") (.arg (.name n!"techs_count") .argNil))
    (.assign n!"common" (.call (.attr (.name n!"content") n!"read_class") (.arg (.name n!"Common") .argNil))
    (.assign n!"vertical_line" (.call (.attr (.name n!"content") n!"read_int_32") .argNil)
    (.assign n!"location_in_age" (.call (.attr (.name n!"content") n!"read_int_32") .argNil)
    (.assign n!"line_mode" (.call (.attr (.name n!"content") n!"read_int_32") .argNil)
    (.ret (.call (.name n!"cls") (.kw n!"id" (.name n!"id_") (.kw n!"status" (.name n!"status") (.kw n!"upper_building" (.name n!"upper_building") (.kw n!"buildings" (.name n!"buildings") (.kw n!"units" (.name n!"units") (.kw n!"techs" (.name n!"techs") (.kw n!"common" (.name n!"common") (.kw n!"vertical_line" (.name n!"vertical_line") (.kw n!"location_in_age" (.name n!"location_in_age") (.kw n!"line_mode" (.name n!"line_mode") .argNil)))))))))))))))))))))))))

/-- `ResearchConnection.to_bytes` — `/repo/src/genieutils/techtree.py:251-266`. -/
def ResearchConnection.src_to_bytes : Fun where
  name := n!"to_bytes"
  kind := .method
  params := [(n!"self", .argNil), (n!"version", .argNil)]
  body :=
    (.ret (.call (.attr (.bytes []) n!"join") (.arg (.list (.arg (.call (.attr (.name n!"self") n!"write_int_32") (.arg (.attr (.name n!"self") n!"id") .argNil)) (.arg (.call (.attr (.name n!"self") n!"write_int_8") (.arg (.attr (.name n!"self") n!"status") .argNil)) (.arg (.call (.attr (.name n!"self") n!"write_int_32") (.arg (.attr (.name n!"self") n!"upper_building") .argNil)) (.arg (.call (.attr (.name n!"self") n!"write_int_8") (.arg (.call (.name n!"len") (.arg (.attr (.name n!"self") n!"buildings") .argNil)) .argNil)) (.arg (.call (.attr (.name n!"self") n!"write_int_32_array") (.arg (.attr (.name n!"self") n!"buildings") .argNil)) (.arg (.call (.attr (.name n!"self") n!"write_int_8") (.arg (.call (.name n!"len") (.arg (.attr (.name n!"self") n!"units") .argNil)) .argNil)) (.arg (.call (.attr (.name n!"self") n!"write_int_32_array") (.arg (.attr (.name n!"self") n!"units") .argNil)) (.arg (.call (.attr (.name n!"self") n!"write_int_8") (.arg (.call (.name n!"len") (.arg (.attr (.name n!"self") n!"techs") .argNil)) .argNil)) (.arg (.call (.attr (.name n!"self") n!"write_int_32_array") (.arg (.attr (.name n!"self") n!"techs") .argNil)) (.arg (.call (.attr (.name n!"self") n!"write_class") (.arg (.attr (.name n!"self") n!"common") (.arg (.name n!"version") .argNil))) (.arg (.call (.attr (.name n!"self") n!"write_int_32") (.arg (.attr (.name n!"self") n!"vertical_line") .argNil)) (.arg (.call (.attr (.name n!"self") n!"write_int_32") (.arg (.attr (.name n!"self") n!"location_in_age") .argNil)) (.arg (.call (.attr (.name n!"self") n!"write_int_32") (.arg (.attr (.name n!"self") n!"line_mode") .argNil)) .argNil)))))))))))))) .argNil)))

/-- `class ResearchConnection` — `/repo/src/genieutils/techtree.py:211-266`. -/
def ResearchConnection.src : Cls where
  name := n!"ResearchConnection"
  module := n!"techtree"
  base := n!"GenieClass"
  dataclass := true
  fields := [(n!"id", .argNil), (n!"status", .argNil), (n!"upper_building", .argNil), (n!"buildings", .argNil), (n!"units", .argNil), (n!"techs", .argNil), (n!"common", .argNil), (n!"vertical_line", .argNil), (n!"location_in_age", .argNil), (n!"line_mode", .argNil)]
  vars := []
  funs := [ResearchConnection.src_from_bytes, ResearchConnection.src_to_bytes]

/-- `TechTree.from_bytes` — `/repo/src/genieutils/techtree.py:278-294`. -/
def TechTree.src_from_bytes : Fun where
  name := n!"from_bytes"
  kind := .classMethod
  params := [(n!"cls", .argNil), (n!"content", .argNil)]
  body :=
    (.assign n!"age_count" (.call (.attr (.name n!"content") n!"read_int_8") .argNil)
    (.assign n!"building_count" (.call (.attr (.name n!"content") n!"read_int_8") .argNil)
    (.assign n!"unit_count" (.call (.attr (.name n!"content") n!"read_int_8") .argNil)
    (.assign n!"research_count" (.call (.attr (.name n!"content") n!"read_int_8") .argNil)
    (.assign n!"total_unit_tech_groups" (.call (.attr (.name n!"content") n!"read_int_32") .argNil)
    (.assign n!"tech_tree_ages" (.call (.attr (.name n!"content") n!"read_class_array") (.arg (.name n!"TechTreeAge") (.arg (.name n!"age_count") .argNil)))
    (.assign n!"building_connections" (.call (.attr (.name n!"content") n!"read_class_array") (.arg (.name n!"BuildingConnection") (.arg (.name n!"building_count") .argNil)))
    (.assign n!"unit_connections" (.call (.attr (.name n!"content") n!"read_class_array") (.arg (.name n!"UnitConnection") (.arg (.name n!"unit_count") .argNil)))
    (.assign n!"research_connections" (.call (.attr (.name n!"content") n!"read_class_array") (.arg (.name n!"ResearchConnection") (.arg (.name n!"research_count") .argNil)))
    (.ret (.call (.name n!"cls") (.kw n!"total_unit_tech_groups" (.name n!"total_unit_tech_groups") (.kw n!"tech_tree_ages" (.name n!"tech_tree_ages") (.kw n!"building_connections" (.name n!"building_connections") (.kw n!"unit_connections" (.name n!"unit_connections") (.kw n!"research_connections" (.name n!"research_connections") .argNil))))))))))))))))

/-- `TechTree.to_bytes` — `/repo/src/genieutils/techtree.py:296-307`. -/
def TechTree.src_to_bytes : Fun where
  name := n!"to_bytes"
  kind := .method
  params := [(n!"self", .argNil), (n!"version", .argNil)]
  body :=
    (.ret (.call (.attr (.bytes []) n!"join") (.arg (.list (.arg (.call (.attr (.name n!"self") n!"write_int_8") (.arg (.call (.name n!"len") (.arg (.attr (.name n!"self") n!"tech_tree_ages") .argNil)) .argNil)) (.arg (.call (.attr (.name n!"self") n!"write_int_8") (.arg (.call (.name n!"len") (.arg (.attr (.name n!"self") n!"building_connections") .argNil)) .argNil)) (.arg (.call (.attr (.name n!"self") n!"write_int_8") (.arg (.call (.name n!"len") (.arg (.attr (.name n!"self") n!"unit_connections") .argNil)) .argNil)) (.arg (.call (.attr (.name n!"self") n!"write_int_8") (.arg (.call (.name n!"len") (.arg (.attr (.name n!"self") n!"research_connections") .argNil)) .argNil)) (.arg (.call (.attr (.name n!"self") n!"write_int_32") (.arg (.attr (.name n!"self") n!"total_unit_tech_groups") .argNil)) (.arg (.call (.attr (.name n!"self") n!"write_class_array") (.arg (.attr (.name n!"self") n!"tech_tree_ages") (.arg (.name n!"version") .argNil))) (.arg (.call (.attr (.name n!"self") n!"write_class_array") (.arg (.attr (.name n!"self") n!"building_connections") (.arg (.name n!"version") .argNil))) (.arg (.call (.attr (.name n!"self") n!"write_class_array") (.arg (.attr (.name n!"self") n!"unit_connections") (.arg (.name n!"version") .argNil))) (.arg (.call (.attr (.name n!"self") n!"write_class_array") (.arg (.attr (.name n!"self") n!"research_connections") (.arg (.name n!"version") .argNil))) .argNil)))))))))) .argNil)))

/-- `class TechTree` — `/repo/src/genieutils/techtree.py:270-307`. -/
def TechTree.src : Cls where
  name := n!"TechTree"
  module := n!"techtree"
  base := n!"GenieClass"
  dataclass := true
  fields := [(n!"total_unit_tech_groups", .argNil), (n!"tech_tree_ages", .argNil), (n!"building_connections", .argNil), (n!"unit_connections", .argNil), (n!"research_connections", .argNil)]
  vars := []
  funs := [TechTree.src_from_bytes, TechTree.src_to_bytes]

/-- The names of the module `/repo/src/genieutils/techtree.py`. -/
def module_techtree : Module where
  name := n!"techtree"
  globals := [
    (n!"dataclass", .lib),
    (n!"ByteHandler", .from_ n!"common"),
    (n!"GenieClass", .from_ n!"common"),
    (n!"Version", .from_ n!"versions"),
    (n!"Common", .cls),
    (n!"TechTreeAge", .cls),
    (n!"BuildingConnection", .cls),
    (n!"UnitConnection", .cls),
    (n!"ResearchConnection", .cls),
    (n!"TechTree", .cls)]

/-- `UnitHeaders.from_bytes` — `/repo/src/genieutils/unitheaders.py:14-23`. -/
def UnitHeaders.src_from_bytes : Fun where
  name := n!"from_bytes"
  kind := .classMethod
  params := [(n!"cls", .argNil), (n!"content", .argNil)]
  body :=
    (.assign n!"exists" (.call (.attr (.name n!"content") n!"read_int_8") .argNil)
    (.assign n!"task_list" .none
    (.ite (.name n!"exists")
        (.assign n!"task_count" (.call (.attr (.name n!"content") n!"read_int_16") .argNil)
        (.assign n!"task_list" (.call (.attr (.name n!"content") n!"read_class_array") (.arg (.name n!"Task") (.arg (.name n!"task_count") .argNil)))
        .done))
        .done
    (.ret (.call (.name n!"cls") (.kw n!"exists" (.name n!"exists") (.kw n!"task_list" (.name n!"task_list") .argNil)))))))

/-- `UnitHeaders.to_bytes` — `/repo/src/genieutils/unitheaders.py:25-30`. -/
def UnitHeaders.src_to_bytes : Fun where
  name := n!"to_bytes"
  kind := .method
  params := [(n!"self", .argNil), (n!"version", .argNil)]
  body :=
    (.ret (.call (.attr (.bytes []) n!"join") (.arg (.list (.arg (.call (.attr (.name n!"self") n!"write_int_8") (.arg (.attr (.name n!"self") n!"exists") .argNil)) (.arg (.ifExp (.and (.attr (.name n!"self") n!"exists") (.compare (.attr (.name n!"self") n!"task_list") (.cmp .isNot .none .cmpNil))) (.call (.attr (.name n!"self") n!"write_int_16") (.arg (.call (.name n!"len") (.arg (.attr (.name n!"self") n!"task_list") .argNil)) .argNil)) (.bytes [])) (.arg (.ifExp (.and (.attr (.name n!"self") n!"exists") (.compare (.attr (.name n!"self") n!"task_list") (.cmp .isNot .none .cmpNil))) (.call (.attr (.name n!"self") n!"write_class_array") (.arg (.attr (.name n!"self") n!"task_list") (.arg (.name n!"version") .argNil))) (.bytes [])) .argNil)))) .argNil)))

/-- `class UnitHeaders` — `/repo/src/genieutils/unitheaders.py:9-30`. -/
def UnitHeaders.src : Cls where
  name := n!"UnitHeaders"
  module := n!"unitheaders"
  base := n!"GenieClass"
  dataclass := true
  fields := [(n!"exists", .argNil), (n!"task_list", .none)]
  vars := []
  funs := [UnitHeaders.src_from_bytes, UnitHeaders.src_to_bytes]

/-- The names of the module `/repo/src/genieutils/unitheaders.py`. -/
def module_unitheaders : Module where
  name := n!"unitheaders"
  globals := [
    (n!"dataclass", .lib),
    (n!"ByteHandler", .from_ n!"common"),
    (n!"GenieClass", .from_ n!"common"),
    (n!"Task", .from_ n!"task"),
    (n!"Version", .from_ n!"versions"),
    (n!"UnitHeaders", .cls)]

/-- `Civ.from_bytes` — `/repo/src/genieutils/civ.py:19-38`. -/
def Civ.src_from_bytes : Fun where
  name := n!"from_bytes"
  kind := .classMethod
  params := [(n!"cls", .argNil), (n!"content", .argNil)]
  body :=
    (.assign n!"player_type" (.call (.attr (.name n!"content") n!"read_int_8") .argNil)
    (.assign n!"name" (.call (.attr (.name n!"content") n!"read_debug_string") .argNil)
    (.assign n!"resources_size" (.call (.attr (.name n!"content") n!"read_int_16") .argNil)
    (.assign n!"tech_tree_id" (.call (.attr (.name n!"content") n!"read_int_16") .argNil)
    (.assign n!"team_bonus_id" (.call (.attr (.name n!"content") n!"read_int_16") .argNil)
    (.assign n!"resources" (.call (.attr (.name n!"content") n!"read_float_array") (.arg (.name n!"resources_size") .argNil))
    (.assign n!"icon_set" (.call (.attr (.name n!"content") n!"read_int_8") .argNil)
    (.assign n!"units_size" (.call (.attr (.name n!"content") n!"read_int_16") .argNil)
    (.assign n!"unit_pointers" (.call (.attr (.name n!"content") n!"read_int_32_array") (.arg (.name n!"units_size") .argNil))
    (.assign n!"units" (.call (.attr (.name n!"content") n!"read_class_array_with_pointers") (.arg (.name n!"Unit") (.arg (.name n!"units_size") (.arg (.name n!"unit_pointers") .argNil))))
    (.ret (.call (.name n!"cls") (.kw n!"player_type" (.name n!"player_type") (.kw n!"name" (.name n!"name") (.kw n!"tech_tree_id" (.name n!"tech_tree_id") (.kw n!"team_bonus_id" (.name n!"team_bonus_id") (.kw n!"resources" (.name n!"resources") (.kw n!"icon_set" (.name n!"icon_set") (.kw n!"units" (.name n!"units") .argNil)))))))))))))))))))

/-- `Civ.unit_pointers` — `/repo/src/genieutils/civ.py:41-42`. -/
def Civ.src_unit_pointers : Fun where
  name := n!"unit_pointers"
  kind := .property
  params := [(n!"self", .argNil)]
  body :=
    (.ret (.comp (.ifExp (.compare (.name n!"u") (.cmp .is .none .cmpNil)) (.int 0) (.int 1)) n!"u" (.attr (.name n!"self") n!"units")))

/-- `Civ.to_bytes` — `/repo/src/genieutils/civ.py:44-56`. -/
def Civ.src_to_bytes : Fun where
  name := n!"to_bytes"
  kind := .method
  params := [(n!"self", .argNil), (n!"version", .argNil)]
  body :=
    (.ret (.call (.attr (.bytes []) n!"join") (.arg (.list (.arg (.call (.attr (.name n!"self") n!"write_int_8") (.arg (.attr (.name n!"self") n!"player_type") .argNil)) (.arg (.call (.attr (.name n!"self") n!"write_debug_string") (.arg (.attr (.name n!"self") n!"name") .argNil)) (.arg (.call (.attr (.name n!"self") n!"write_int_16") (.arg (.call (.name n!"len") (.arg (.attr (.name n!"self") n!"resources") .argNil)) .argNil)) (.arg (.call (.attr (.name n!"self") n!"write_int_16") (.arg (.attr (.name n!"self") n!"tech_tree_id") .argNil)) (.arg (.call (.attr (.name n!"self") n!"write_int_16") (.arg (.attr (.name n!"self") n!"team_bonus_id") .argNil)) (.arg (.call (.attr (.name n!"self") n!"write_float_array") (.arg (.attr (.name n!"self") n!"resources") .argNil)) (.arg (.call (.attr (.name n!"self") n!"write_int_8") (.arg (.attr (.name n!"self") n!"icon_set") .argNil)) (.arg (.call (.attr (.name n!"self") n!"write_int_16") (.arg (.call (.name n!"len") (.arg (.attr (.name n!"self") n!"units") .argNil)) .argNil)) (.arg (.call (.attr (.name n!"self") n!"write_int_32_array") (.arg (.attr (.name n!"self") n!"unit_pointers") .argNil)) (.arg (.call (.attr (.name n!"self") n!"write_class_array") (.arg (.attr (.name n!"self") n!"units") (.arg (.name n!"version") .argNil))) .argNil))))))))))) .argNil)))

/-- `class Civ` — `/repo/src/genieutils/civ.py:9-56`. -/
def Civ.src : Cls where
  name := n!"Civ"
  module := n!"civ"
  base := n!"GenieClass"
  dataclass := true
  fields := [(n!"player_type", .argNil), (n!"name", .argNil), (n!"tech_tree_id", .argNil), (n!"team_bonus_id", .argNil), (n!"resources", .argNil), (n!"icon_set", .argNil), (n!"units", .argNil)]
  vars := []
  funs := [Civ.src_from_bytes, Civ.src_unit_pointers, Civ.src_to_bytes]

/-- The names of the module `/repo/src/genieutils/civ.py`. -/
def module_civ : Module where
  name := n!"civ"
  globals := [
    (n!"dataclass", .lib),
    (n!"ByteHandler", .from_ n!"common"),
    (n!"GenieClass", .from_ n!"common"),
    (n!"Unit", .from_ n!"unit"),
    (n!"Version", .from_ n!"versions"),
    (n!"Civ", .cls)]

/-- `DatFile.from_bytes` — `/repo/src/genieutils/datfile.py:58-114`. -/
def DatFile.src_from_bytes : Fun where
  name := n!"from_bytes"
  kind := .classMethod
  params := [(n!"cls", .argNil), (n!"content", .argNil)]
  body :=
    (.assign n!"version" (.call (.attr (.name n!"content") n!"read_string") (.arg (.int 8) .argNil))
    (.setAttr (.name n!"content") n!"version" (.call (.name n!"Version") (.arg (.name n!"version") .argNil))
    (.assign n!"terrain_restrictions_size" (.call (.attr (.name n!"content") n!"read_int_16") .argNil)
    (.assign n!"terrains_used_1" (.call (.attr (.name n!"content") n!"read_int_16") .argNil)
    (.assign n!"float_ptr_terrain_tables" (.call (.attr (.name n!"content") n!"read_int_32_array") (.arg (.name n!"terrain_restrictions_size") .argNil))
    (.assign n!"terrain_pass_graphic_pointers" (.call (.attr (.name n!"content") n!"read_int_32_array") (.arg (.name n!"terrain_restrictions_size") .argNil))
    (.assign n!"terrain_restrictions" (.call (.attr (.name n!"content") n!"read_class_array_with_param") (.arg (.name n!"TerrainRestriction") (.arg (.name n!"terrain_restrictions_size") (.arg (.name n!"terrains_used_1") .argNil))))
    (.assign n!"player_colours_size" (.call (.attr (.name n!"content") n!"read_int_16") .argNil)
    (.assign n!"player_colours" (.call (.attr (.name n!"content") n!"read_class_array") (.arg (.name n!"PlayerColour") (.arg (.name n!"player_colours_size") .argNil)))
    (.assign n!"sounds_size" (.call (.attr (.name n!"content") n!"read_int_16") .argNil)
    (.assign n!"sounds" (.call (.attr (.name n!"content") n!"read_class_array") (.arg (.name n!"Sound") (.arg (.name n!"sounds_size") .argNil)))
    (.assign n!"graphics_size" (.call (.attr (.name n!"content") n!"read_int_16") .argNil)
    (.assign n!"graphic_pointers" (.call (.attr (.name n!"content") n!"read_int_32_array") (.arg (.name n!"graphics_size") .argNil))
    (.assign n!"graphics" (.call (.attr (.name n!"content") n!"read_class_array_with_pointers") (.arg (.name n!"Graphic") (.arg (.name n!"graphics_size") (.arg (.name n!"graphic_pointers") .argNil))))
    (.assign n!"terrain_block" (.call (.attr (.name n!"content") n!"read_class") (.arg (.name n!"TerrainBlock") .argNil))
    (.assign n!"random_maps" (.call (.attr (.name n!"content") n!"read_class") (.arg (.name n!"RandomMaps") .argNil))
    (.assign n!"effects_size" (.call (.attr (.name n!"content") n!"read_int_32") .argNil)
    (.assign n!"effects" (.call (.attr (.name n!"content") n!"read_class_array") (.arg (.name n!"Effect") (.arg (.name n!"effects_size") .argNil)))
    (.assign n!"unit_headers_size" (.call (.attr (.name n!"content") n!"read_int_32") .argNil)
    (.assign n!"unit_headers" (.call (.attr (.name n!"content") n!"read_class_array") (.arg (.name n!"UnitHeaders") (.arg (.name n!"unit_headers_size") .argNil)))
    (.assign n!"civs_size" (.call (.attr (.name n!"content") n!"read_int_16") .argNil)
    (.assign n!"civs" (.call (.attr (.name n!"content") n!"read_class_array") (.arg (.name n!"Civ") (.arg (.name n!"civs_size") .argNil)))
    (.assign n!"techs_size" (.call (.attr (.name n!"content") n!"read_int_16") .argNil)
    (.assign n!"techs" (.call (.attr (.name n!"content") n!"read_class_array") (.arg (.name n!"Tech") (.arg (.name n!"techs_size") .argNil)))
    (.assign n!"time_slice" (.call (.attr (.name n!"content") n!"read_int_32") .argNil)
    (.assign n!"unit_kill_rate" (.call (.attr (.name n!"content") n!"read_int_32") .argNil)
    (.assign n!"unit_kill_total" (.call (.attr (.name n!"content") n!"read_int_32") .argNil)
    (.assign n!"unit_hit_point_rate" (.call (.attr (.name n!"content") n!"read_int_32") .argNil)
    (.assign n!"unit_hit_point_total" (.call (.attr (.name n!"content") n!"read_int_32") .argNil)
    (.assign n!"razing_kill_rate" (.call (.attr (.name n!"content") n!"read_int_32") .argNil)
    (.assign n!"razing_kill_total" (.call (.attr (.name n!"content") n!"read_int_32") .argNil)
    (.assign n!"tech_tree" (.call (.attr (.name n!"content") n!"read_class") (.arg (.name n!"TechTree") .argNil))
    (.ret (.call (.name n!"cls") (.kw n!"version" (.name n!"version") (.kw n!"float_ptr_terrain_tables" (.name n!"float_ptr_terrain_tables") (.kw n!"terrain_pass_graphic_pointers" (.name n!"terrain_pass_graphic_pointers") (.kw n!"terrain_restrictions" (.name n!"terrain_restrictions") (.kw n!"player_colours" (.name n!"player_colours") (.kw n!"sounds" (.name n!"sounds") (.kw n!"graphics" (.name n!"graphics") (.kw n!"terrain_block" (.name n!"terrain_block") (.kw n!"random_maps" (.name n!"random_maps") (.kw n!"effects" (.name n!"effects") (.kw n!"unit_headers" (.name n!"unit_headers") (.kw n!"civs" (.name n!"civs") (.kw n!"techs" (.name n!"techs") (.kw n!"time_slice" (.name n!"time_slice") (.kw n!"unit_kill_rate" (.name n!"unit_kill_rate") (.kw n!"unit_kill_total" (.name n!"unit_kill_total") (.kw n!"unit_hit_point_rate" (.name n!"unit_hit_point_rate") (.kw n!"unit_hit_point_total" (.name n!"unit_hit_point_total") (.kw n!"razing_kill_rate" (.name n!"razing_kill_rate") (.kw n!"razing_kill_total" (.name n!"razing_kill_total") (.kw n!"tech_tree" (.name n!"tech_tree") .argNil)))))))))))))))))))))))))))))))))))))))))))))))))))))))

/-- `DatFile.graphic_pointers` — `/repo/src/genieutils/datfile.py:117-118`. -/
def DatFile.src_graphic_pointers : Fun where
  name := n!"graphic_pointers"
  kind := .property
  params := [(n!"self", .argNil)]
  body :=
    (.ret (.comp (.ifExp (.compare (.name n!"g") (.cmp .is .none .cmpNil)) (.int 0) (.int 1)) n!"g" (.attr (.name n!"self") n!"graphics")))

/-- `DatFile.to_bytes` — `/repo/src/genieutils/datfile.py:120-160`. -/
def DatFile.src_to_bytes : Fun where
  name := n!"to_bytes"
  kind := .method
  params := [(n!"self", .argNil), (n!"version", (.attr (.name n!"Version") n!"UNDEFINED"))]
  body :=
    (.assign n!"version" (.call (.name n!"Version") (.arg (.attr (.name n!"self") n!"version") .argNil))
    (.assign n!"terrain_restrictions_size" (.call (.name n!"len") (.arg (.attr (.name n!"self") n!"terrain_restrictions") .argNil))
    (.assert (.compare (.call (.name n!"len") (.arg (.attr (.name n!"self") n!"float_ptr_terrain_tables") .argNil)) (.cmp .eq (.call (.name n!"len") (.arg (.attr (.name n!"self") n!"terrain_pass_graphic_pointers") .argNil)) (.cmp .eq (.name n!"terrain_restrictions_size") .cmpNil)))
    (.assign n!"terrains_used" (.int 0)
    (.ite (.attr (.name n!"self") n!"terrain_restrictions")
        (.assign n!"terrains_used" (.call (.name n!"len") (.arg (.attr (.index (.attr (.name n!"self") n!"terrain_restrictions") (.int 0)) n!"passable_buildable_dmg_multiplier") .argNil))
        .done)
        .done
    (.ret (.call (.attr (.bytes []) n!"join") (.arg (.list (.arg (.call (.attr (.name n!"self") n!"write_string") (.arg (.int 8) (.arg (.attr (.name n!"self") n!"version") .argNil))) (.arg (.call (.attr (.name n!"self") n!"write_int_16") (.arg (.name n!"terrain_restrictions_size") .argNil)) (.arg (.call (.attr (.name n!"self") n!"write_int_16") (.arg (.name n!"terrains_used") .argNil)) (.arg (.call (.attr (.name n!"self") n!"write_int_32_array") (.arg (.attr (.name n!"self") n!"float_ptr_terrain_tables") .argNil)) (.arg (.call (.attr (.name n!"self") n!"write_int_32_array") (.arg (.attr (.name n!"self") n!"terrain_pass_graphic_pointers") .argNil)) (.arg (.call (.attr (.name n!"self") n!"write_class_array") (.arg (.attr (.name n!"self") n!"terrain_restrictions") (.arg (.name n!"version") .argNil))) (.arg (.call (.attr (.name n!"self") n!"write_int_16") (.arg (.call (.name n!"len") (.arg (.attr (.name n!"self") n!"player_colours") .argNil)) .argNil)) (.arg (.call (.attr (.name n!"self") n!"write_class_array") (.arg (.attr (.name n!"self") n!"player_colours") (.arg (.name n!"version") .argNil))) (.arg (.call (.attr (.name n!"self") n!"write_int_16") (.arg (.call (.name n!"len") (.arg (.attr (.name n!"self") n!"sounds") .argNil)) .argNil)) (.arg (.call (.attr (.name n!"self") n!"write_class_array") (.arg (.attr (.name n!"self") n!"sounds") (.arg (.name n!"version") .argNil))) (.arg (.call (.attr (.name n!"self") n!"write_int_16") (.arg (.call (.name n!"len") (.arg (.attr (.name n!"self") n!"graphics") .argNil)) .argNil)) (.arg (.call (.attr (.name n!"self") n!"write_int_32_array") (.arg (.attr (.name n!"self") n!"graphic_pointers") .argNil)) (.arg (.call (.attr (.name n!"self") n!"write_class_array") (.arg (.attr (.name n!"self") n!"graphics") (.arg (.name n!"version") .argNil))) (.arg (.call (.attr (.name n!"self") n!"write_class") (.arg (.attr (.name n!"self") n!"terrain_block") (.arg (.name n!"version") .argNil))) (.arg (.call (.attr (.name n!"self") n!"write_class") (.arg (.attr (.name n!"self") n!"random_maps") (.arg (.name n!"version") .argNil))) (.arg (.call (.attr (.name n!"self") n!"write_int_32") (.arg (.call (.name n!"len") (.arg (.attr (.name n!"self") n!"effects") .argNil)) .argNil)) (.arg (.call (.attr (.name n!"self") n!"write_class_array") (.arg (.attr (.name n!"self") n!"effects") (.arg (.name n!"version") .argNil))) (.arg (.call (.attr (.name n!"self") n!"write_int_32") (.arg (.call (.name n!"len") (.arg (.attr (.name n!"self") n!"unit_headers") .argNil)) .argNil)) (.arg (.call (.attr (.name n!"self") n!"write_class_array") (.arg (.attr (.name n!"self") n!"unit_headers") (.arg (.name n!"version") .argNil))) (.arg (.call (.attr (.name n!"self") n!"write_int_16") (.arg (.call (.name n!"len") (.arg (.attr (.name n!"self") n!"civs") .argNil)) .argNil)) (.arg (.call (.attr (.name n!"self") n!"write_class_array") (.arg (.attr (.name n!"self") n!"civs") (.arg (.name n!"version") .argNil))) (.arg (.call (.attr (.name n!"self") n!"write_int_16") (.arg (.call (.name n!"len") (.arg (.attr (.name n!"self") n!"techs") .argNil)) .argNil)) (.arg (.call (.attr (.name n!"self") n!"write_class_array") (.arg (.attr (.name n!"self") n!"techs") (.arg (.name n!"version") .argNil))) (.arg (.call (.attr (.name n!"self") n!"write_int_32") (.arg (.attr (.name n!"self") n!"time_slice") .argNil)) (.arg (.call (.attr (.name n!"self") n!"write_int_32") (.arg (.attr (.name n!"self") n!"unit_kill_rate") .argNil)) (.arg (.call (.attr (.name n!"self") n!"write_int_32") (.arg (.attr (.name n!"self") n!"unit_kill_total") .argNil)) (.arg (.call (.attr (.name n!"self") n!"write_int_32") (.arg (.attr (.name n!"self") n!"unit_hit_point_rate") .argNil)) (.arg (.call (.attr (.name n!"self") n!"write_int_32") (.arg (.attr (.name n!"self") n!"unit_hit_point_total") .argNil)) (.arg (.call (.attr (.name n!"self") n!"write_int_32") (.arg (.attr (.name n!"self") n!"razing_kill_rate") .argNil)) (.arg (.call (.attr (.name n!"self") n!"write_int_32") (.arg (.attr (.name n!"self") n!"razing_kill_total") .argNil)) (.arg (.call (.attr (.name n!"self") n!"write_class") (.arg (.attr (.name n!"self") n!"tech_tree") (.arg (.name n!"version") .argNil))) .argNil)))))))))))))))))))))))))))))))) .argNil))))))))

/-- `class DatFile` — `/repo/src/genieutils/datfile.py:22-160`. -/
def DatFile.src : Cls where
  name := n!"DatFile"
  module := n!"datfile"
  base := n!"GenieClass"
  dataclass := true
  fields := [(n!"version", .argNil), (n!"float_ptr_terrain_tables", .argNil), (n!"terrain_pass_graphic_pointers", .argNil), (n!"terrain_restrictions", .argNil), (n!"player_colours", .argNil), (n!"sounds", .argNil), (n!"graphics", .argNil), (n!"terrain_block", .argNil), (n!"random_maps", .argNil), (n!"effects", .argNil), (n!"unit_headers", .argNil), (n!"civs", .argNil), (n!"techs", .argNil), (n!"time_slice", .argNil), (n!"unit_kill_rate", .argNil), (n!"unit_kill_total", .argNil), (n!"unit_hit_point_rate", .argNil), (n!"unit_hit_point_total", .argNil), (n!"razing_kill_rate", .argNil), (n!"razing_kill_total", .argNil), (n!"tech_tree", .argNil)]
  vars := []
  funs := [DatFile.src_from_bytes, DatFile.src_graphic_pointers, DatFile.src_to_bytes]

/-- The names of the module `/repo/src/genieutils/datfile.py`. -/
def module_datfile : Module where
  name := n!"datfile"
  globals := [
    (n!"zlib", .lib),
    (n!"dataclass", .lib),
    (n!"PathLike", .lib),
    (n!"Path", .lib),
    (n!"Civ", .from_ n!"civ"),
    (n!"ByteHandler", .from_ n!"common"),
    (n!"GenieClass", .from_ n!"common"),
    (n!"Effect", .from_ n!"effect"),
    (n!"Graphic", .from_ n!"graphic"),
    (n!"PlayerColour", .from_ n!"playercolour"),
    (n!"RandomMaps", .from_ n!"randommaps"),
    (n!"Sound", .from_ n!"sound"),
    (n!"Tech", .from_ n!"tech"),
    (n!"TechTree", .from_ n!"techtree"),
    (n!"TerrainBlock", .from_ n!"terrainblock"),
    (n!"TerrainRestriction", .from_ n!"terrainrestriction"),
    (n!"UnitHeaders", .from_ n!"unitheaders"),
    (n!"Version", .from_ n!"versions"),
    (n!"DatFile", .cls)]

end Genie.Src
