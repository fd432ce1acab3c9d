import Verif.Model.Common
/-!
# `/repo/src/genieutils/graphic.py`

Generated by `tools/gen_model.py` from the source text (reader and writer transcribed
independently, statement by statement).
-/

set_option linter.unusedVariables false

namespace Genie

/-- `class GraphicDelta` — `/repo/src/genieutils/graphic.py:7-15`. -/
structure GraphicDelta where
  graphic_id : Int
  padding_1 : Int
  sprite_ptr : Int
  offset_x : Int
  offset_y : Int
  display_angle : Int
  padding_2 : Int
deriving DecidableEq, Inhabited

/-- `GraphicDelta.from_bytes` — `/repo/src/genieutils/graphic.py:18-27`. -/
def GraphicDelta.fromBytes : Reader GraphicDelta := do
  let graphic_id ← readInt16
  let padding_1 ← readInt16
  let sprite_ptr ← readInt32
  let offset_x ← readInt16
  let offset_y ← readInt16
  let display_angle ← readInt16
  let padding_2 ← readInt16
  return {
    graphic_id := graphic_id,
    padding_1 := padding_1,
    sprite_ptr := sprite_ptr,
    offset_x := offset_x,
    offset_y := offset_y,
    display_angle := display_angle,
    padding_2 := padding_2 }

/-- `GraphicDelta.to_bytes` — `/repo/src/genieutils/graphic.py:29-38`. -/
def GraphicDelta.toBytes (version : Version) (self : GraphicDelta) : Py Bytes :=
  joinB [
    writeInt16 self.graphic_id,
    writeInt16 self.padding_1,
    writeInt32 self.sprite_ptr,
    writeInt16 self.offset_x,
    writeInt16 self.offset_y,
    writeInt16 self.display_angle,
    writeInt16 self.padding_2]

/-- `class GraphicAngleSound` — `/repo/src/genieutils/graphic.py:41-51`. -/
structure GraphicAngleSound where
  frame_num : Int
  sound_id : Int
  wwise_sound_id : Int
  frame_num_2 : Int
  sound_id_2 : Int
  wwise_sound_id_2 : Int
  frame_num_3 : Int
  sound_id_3 : Int
  wwise_sound_id_3 : Int
deriving DecidableEq, Inhabited

/-- `GraphicAngleSound.from_bytes` — `/repo/src/genieutils/graphic.py:54-65`. -/
def GraphicAngleSound.fromBytes : Reader GraphicAngleSound := do
  let frame_num ← readInt16
  let sound_id ← readInt16
  let wwise_sound_id ← readInt32
  let frame_num_2 ← readInt16
  let sound_id_2 ← readInt16
  let wwise_sound_id_2 ← readInt32
  let frame_num_3 ← readInt16
  let sound_id_3 ← readInt16
  let wwise_sound_id_3 ← readInt32
  return {
    frame_num := frame_num,
    sound_id := sound_id,
    wwise_sound_id := wwise_sound_id,
    frame_num_2 := frame_num_2,
    sound_id_2 := sound_id_2,
    wwise_sound_id_2 := wwise_sound_id_2,
    frame_num_3 := frame_num_3,
    sound_id_3 := sound_id_3,
    wwise_sound_id_3 := wwise_sound_id_3 }

/-- `GraphicAngleSound.to_bytes` — `/repo/src/genieutils/graphic.py:67-78`. -/
def GraphicAngleSound.toBytes (version : Version) (self : GraphicAngleSound) : Py Bytes :=
  joinB [
    writeInt16 self.frame_num,
    writeInt16 self.sound_id,
    writeInt32 self.wwise_sound_id,
    writeInt16 self.frame_num_2,
    writeInt16 self.sound_id_2,
    writeInt32 self.wwise_sound_id_2,
    writeInt16 self.frame_num_3,
    writeInt16 self.sound_id_3,
    writeInt32 self.wwise_sound_id_3]

/-- `class Graphic` — `/repo/src/genieutils/graphic.py:81-106`. -/
structure Graphic where
  name : PyStr
  file_name : PyStr
  particle_effect_name : PyStr
  slp : Int
  is_loaded : Int
  old_color_flag : Int
  layer : Int
  player_color : Int
  transparent_selection : Int
  coordinates : List Int
  sound_id : Int
  wwise_sound_id : Int
  angle_sounds_used : Int
  frame_count : Int
  angle_count : Int
  speed_multiplier : PyFloat
  frame_duration : PyFloat
  replay_delay : PyFloat
  sequence_type : Int
  id : Int
  mirroring_mode : Int
  editor_flag : Int
  deltas : List GraphicDelta
  angle_sounds : List GraphicAngleSound
deriving DecidableEq, Inhabited

/-- `Graphic.from_bytes` — `/repo/src/genieutils/graphic.py:109-160`. -/
def Graphic.fromBytes : Reader Graphic := do
  let name ← readDebugString
  let file_name ← readDebugString
  let particle_effect_name ← readDebugString
  let slp ← readInt32
  let is_loaded ← readInt8
  let old_color_flag ← readInt8
  let layer ← readInt8
  let player_color ← readInt16
  let transparent_selection ← readInt8
  let coordinates ← readInt16Array4
  let delta_count ← readInt16
  let sound_id ← readInt16
  let wwise_sound_id ← readInt32
  let angle_sounds_used ← readInt8
  let frame_count ← readInt16
  let angle_count ← readInt16
  let speed_multiplier ← readFloat
  let frame_duration ← readFloat
  let replay_delay ← readFloat
  let sequence_type ← readInt8
  let id_ ← readInt16
  let mirroring_mode ← readInt8
  let editor_flag ← readInt8
  let deltas ← readClassArray GraphicDelta.fromBytes delta_count
  let angle_sounds ← readOr (angle_sounds_used ≠ 0) (readClassArray GraphicAngleSound.fromBytes angle_count (countStored := true)) []
  return {
    name := name,
    file_name := file_name,
    particle_effect_name := particle_effect_name,
    slp := slp,
    is_loaded := is_loaded,
    old_color_flag := old_color_flag,
    layer := layer,
    player_color := player_color,
    transparent_selection := transparent_selection,
    coordinates := coordinates,
    sound_id := sound_id,
    wwise_sound_id := wwise_sound_id,
    angle_sounds_used := angle_sounds_used,
    frame_count := frame_count,
    angle_count := angle_count,
    speed_multiplier := speed_multiplier,
    frame_duration := frame_duration,
    replay_delay := replay_delay,
    sequence_type := sequence_type,
    id := id_,
    mirroring_mode := mirroring_mode,
    editor_flag := editor_flag,
    deltas := deltas,
    angle_sounds := angle_sounds }

/-- `Graphic.to_bytes` — `/repo/src/genieutils/graphic.py:162-189`. -/
def Graphic.toBytes (version : Version) (self : Graphic) : Py Bytes :=
  joinB [
    writeDebugString self.name,
    writeDebugString self.file_name,
    writeDebugString self.particle_effect_name,
    writeInt32 self.slp,
    writeInt8 self.is_loaded,
    writeInt8 self.old_color_flag,
    writeInt8 self.layer,
    writeInt16 self.player_color,
    writeInt8 self.transparent_selection,
    writeInt16Array self.coordinates,
    writeInt16 self.deltas.length,
    writeInt16 self.sound_id,
    writeInt32 self.wwise_sound_id,
    writeInt8 self.angle_sounds_used,
    writeInt16 self.frame_count,
    writeInt16 self.angle_count,
    writeFloat self.speed_multiplier,
    writeFloat self.frame_duration,
    writeFloat self.replay_delay,
    writeInt8 self.sequence_type,
    writeInt16 self.id,
    writeInt8 self.mirroring_mode,
    writeInt8 self.editor_flag,
    writeClassArray GraphicDelta.toBytes self.deltas version,
    writeClassArray GraphicAngleSound.toBytes self.angle_sounds version]

end Genie
