import Verif.Model.Common
/-!
# `/repo/src/genieutils/terrainrestriction.py`

Generated by `tools/gen_model.py` from the source text (reader and writer transcribed
independently, statement by statement).
-/

set_option linter.unusedVariables false

namespace Genie

/-- `class TerrainPassGraphic` — `/repo/src/genieutils/terrainrestriction.py:7-12`. -/
structure TerrainPassGraphic where
  exit_tile_sprite_id : Int
  enter_tile_sprite_id : Int
  walk_tile_sprite_id : Int
  walk_sprite_rate : Int
deriving DecidableEq, Inhabited

/-- `TerrainPassGraphic.from_bytes` — `/repo/src/genieutils/terrainrestriction.py:15-21`. -/
def TerrainPassGraphic.fromBytes : Reader TerrainPassGraphic := do
  let exit_tile_sprite_id ← readInt32
  let enter_tile_sprite_id ← readInt32
  let walk_tile_sprite_id ← readInt32
  let walk_sprite_rate ← readInt32
  return {
    exit_tile_sprite_id := exit_tile_sprite_id,
    enter_tile_sprite_id := enter_tile_sprite_id,
    walk_tile_sprite_id := walk_tile_sprite_id,
    walk_sprite_rate := walk_sprite_rate }

/-- `TerrainPassGraphic.to_bytes` — `/repo/src/genieutils/terrainrestriction.py:23-29`. -/
def TerrainPassGraphic.toBytes (version : Version) (self : TerrainPassGraphic) : Py Bytes :=
  joinB [
    writeInt32 self.exit_tile_sprite_id,
    writeInt32 self.enter_tile_sprite_id,
    writeInt32 self.walk_tile_sprite_id,
    writeInt32 self.walk_sprite_rate]

/-- `class TerrainRestriction` — `/repo/src/genieutils/terrainrestriction.py:32-35`. -/
structure TerrainRestriction where
  passable_buildable_dmg_multiplier : List PyFloat
  terrain_pass_graphics : List TerrainPassGraphic
deriving DecidableEq, Inhabited

/-- `TerrainRestriction.from_bytes_with_count` — `/repo/src/genieutils/terrainrestriction.py:38-42`. -/
def TerrainRestriction.fromBytesWithCount (terrain_count : Int) : Reader TerrainRestriction := do
  let passable_buildable_dmg_multiplier ← readFloatArray terrain_count
  let terrain_pass_graphics ← readClassArray TerrainPassGraphic.fromBytes terrain_count
  return {
    passable_buildable_dmg_multiplier := passable_buildable_dmg_multiplier,
    terrain_pass_graphics := terrain_pass_graphics }

/-- `TerrainRestriction.to_bytes` — `/repo/src/genieutils/terrainrestriction.py:44-49`. -/
def TerrainRestriction.toBytes (version : Version) (self : TerrainRestriction) : Py Bytes :=
  if self.passable_buildable_dmg_multiplier.length ≠ self.terrain_pass_graphics.length then .error .assertionError
  else joinB [
    writeFloatArray self.passable_buildable_dmg_multiplier,
    writeClassArray TerrainPassGraphic.toBytes self.terrain_pass_graphics version]

end Genie
