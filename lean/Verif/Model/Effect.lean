import Verif.Model.Common
/-!
# `/repo/src/genieutils/effect.py`

Generated by `tools/gen_model.py` from the source text (reader and writer transcribed
independently, statement by statement).
-/

set_option linter.unusedVariables false

namespace Genie

/-- `class EffectCommand` — `/repo/src/genieutils/effect.py:7-13`. -/
structure EffectCommand where
  type : Int
  a : Int
  b : Int
  c : Int
  d : PyFloat
deriving DecidableEq, Inhabited

/-- `EffectCommand.from_bytes` — `/repo/src/genieutils/effect.py:16-23`. -/
def EffectCommand.fromBytes : Reader EffectCommand := do
  let type ← readInt8
  let a ← readInt16
  let b ← readInt16
  let c ← readInt16
  let d ← readFloat
  return {
    type := type,
    a := a,
    b := b,
    c := c,
    d := d }

/-- `EffectCommand.to_bytes` — `/repo/src/genieutils/effect.py:25-32`. -/
def EffectCommand.toBytes (version : Version) (self : EffectCommand) : Py Bytes :=
  joinB [
    writeInt8 self.type,
    writeInt16 self.a,
    writeInt16 self.b,
    writeInt16 self.c,
    writeFloat self.d]

/-- `class Effect` — `/repo/src/genieutils/effect.py:35-38`. -/
structure Effect where
  name : PyStr
  effect_commands : List EffectCommand
deriving DecidableEq, Inhabited

/-- `Effect.from_bytes` — `/repo/src/genieutils/effect.py:41-48`. -/
def Effect.fromBytes : Reader Effect := do
  let name ← readDebugString
  let effect_command_count ← readInt16
  let effect_commands ← readClassArray EffectCommand.fromBytes effect_command_count
  return {
    name := name,
    effect_commands := effect_commands }

/-- `Effect.to_bytes` — `/repo/src/genieutils/effect.py:50-55`. -/
def Effect.toBytes (version : Version) (self : Effect) : Py Bytes :=
  joinB [
    writeDebugString self.name,
    writeInt16 self.effect_commands.length,
    writeClassArray EffectCommand.toBytes self.effect_commands version]

end Genie
