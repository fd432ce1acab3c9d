import Verif.Model.Common
/-!
# `/repo/src/genieutils/sound.py`

Generated by `tools/gen_model.py` from the source text (reader and writer transcribed
independently, statement by statement).
-/

set_option linter.unusedVariables false

namespace Genie

/-- `class SoundItem` — `/repo/src/genieutils/sound.py:7-13`. -/
structure SoundItem where
  filename : PyStr
  resource_id : Int
  probability : Int
  civilization : Int
  icon_set : Int
deriving DecidableEq, Inhabited

/-- `SoundItem.from_bytes` — `/repo/src/genieutils/sound.py:16-23`. -/
def SoundItem.fromBytes : Reader SoundItem := do
  let filename ← readDebugString
  let resource_id ← readInt32
  let probability ← readInt16
  let civilization ← readInt16
  let icon_set ← readInt16
  return {
    filename := filename,
    resource_id := resource_id,
    probability := probability,
    civilization := civilization,
    icon_set := icon_set }

/-- `SoundItem.to_bytes` — `/repo/src/genieutils/sound.py:25-32`. -/
def SoundItem.toBytes (version : Version) (self : SoundItem) : Py Bytes :=
  joinB [
    writeDebugString self.filename,
    writeInt32 self.resource_id,
    writeInt16 self.probability,
    writeInt16 self.civilization,
    writeInt16 self.icon_set]

/-- `class Sound` — `/repo/src/genieutils/sound.py:35-41`. -/
structure Sound where
  id : Int
  play_delay : Int
  cache_time : Int
  total_probability : Int
  items : List SoundItem
deriving DecidableEq, Inhabited

/-- `Sound.from_bytes` — `/repo/src/genieutils/sound.py:44-57`. -/
def Sound.fromBytes : Reader Sound := do
  let id_ ← readInt16
  let play_delay ← readInt16
  let items_size ← readInt16
  let cache_time ← readInt32
  let total_probability ← readInt16
  let items ← readClassArray SoundItem.fromBytes items_size
  return {
    id := id_,
    play_delay := play_delay,
    cache_time := cache_time,
    total_probability := total_probability,
    items := items }

/-- `Sound.to_bytes` — `/repo/src/genieutils/sound.py:59-67`. -/
def Sound.toBytes (version : Version) (self : Sound) : Py Bytes :=
  joinB [
    writeInt16 self.id,
    writeInt16 self.play_delay,
    writeInt16 self.items.length,
    writeInt32 self.cache_time,
    writeInt16 self.total_probability,
    writeClassArray SoundItem.toBytes self.items version]

end Genie
