import Verif.Model.Effect
import Verif.Model.Sound
import Verif.Model.PlayerColour
import Verif.Model.Graphic
import Verif.Model.TerrainRestriction
import Verif.Model.TerrainBlock
import Verif.Model.RandomMaps
import Verif.Model.UnitHeaders
import Verif.Model.Civ
import Verif.Model.Tech
import Verif.Model.TechTree
/-!
# `/repo/src/genieutils/datfile.py` (except `parse` / `save`, see `Verif/Model/Io.lean`)
-/

namespace Genie

/-- `class DatFile` — `/repo/src/genieutils/datfile.py:21-43`. -/
structure DatFile where
  version : PyStr
  float_ptr_terrain_tables : List Int
  terrain_pass_graphic_pointers : List Int
  terrain_restrictions : List TerrainRestriction
  player_colours : List PlayerColour
  sounds : List Sound
  graphics : List (Option Graphic)
  terrain_block : TerrainBlock
  random_maps : RandomMaps
  effects : List Effect
  unit_headers : List UnitHeaders
  civs : List Civ
  techs : List Tech
  time_slice : Int
  unit_kill_rate : Int
  unit_kill_total : Int
  unit_hit_point_rate : Int
  unit_hit_point_total : Int
  razing_kill_rate : Int
  razing_kill_total : Int
  tech_tree : TechTree
deriving DecidableEq, Inhabited

/-- `DatFile.from_bytes` — `/repo/src/genieutils/datfile.py:57-114`.  The `noteLossy` line is ghost:
without terrain restrictions the value of `terrains_used_1` is not kept anywhere. -/
def DatFile.fromBytes : Reader DatFile := do
  let version ← readString 8
  let content_version ← liftPy (Version.ofStr version)
  setVersion content_version
  let terrain_restrictions_size ← readInt16
  let terrains_used_1 ← readInt16
  let float_ptr_terrain_tables ← readInt32Array terrain_restrictions_size
  let terrain_pass_graphic_pointers ← readInt32Array terrain_restrictions_size
  let terrain_restrictions ← readClassArrayWithParam TerrainRestriction.fromBytesWithCount
    terrain_restrictions_size terrains_used_1
  noteLossy (decide (terrain_restrictions = [] ∧ terrains_used_1 ≠ 0))
  let player_colours_size ← readInt16
  let player_colours ← readClassArray PlayerColour.fromBytes player_colours_size
  let sounds_size ← readInt16
  let sounds ← readClassArray Sound.fromBytes sounds_size
  let graphics_size ← readInt16
  let graphic_pointers ← readInt32Array graphics_size
  let graphics ← readClassArrayWithPointers Graphic.fromBytes graphics_size graphic_pointers
  let terrain_block ← readClass TerrainBlock.fromBytes
  let random_maps ← readClass RandomMaps.fromBytes
  let effects_size ← readInt32
  let effects ← readClassArray Effect.fromBytes effects_size
  let unit_headers_size ← readInt32
  let unit_headers ← readClassArray UnitHeaders.fromBytes unit_headers_size
  let civs_size ← readInt16
  let civs ← readClassArray Civ.fromBytes civs_size
  let techs_size ← readInt16
  let techs ← readClassArray Tech.fromBytes techs_size
  let time_slice ← readInt32
  let unit_kill_rate ← readInt32
  let unit_kill_total ← readInt32
  let unit_hit_point_rate ← readInt32
  let unit_hit_point_total ← readInt32
  let razing_kill_rate ← readInt32
  let razing_kill_total ← readInt32
  let tech_tree ← readClass TechTree.fromBytes
  return {
    version := version,
    float_ptr_terrain_tables := float_ptr_terrain_tables,
    terrain_pass_graphic_pointers := terrain_pass_graphic_pointers,
    terrain_restrictions := terrain_restrictions,
    player_colours := player_colours,
    sounds := sounds,
    graphics := graphics,
    terrain_block := terrain_block,
    random_maps := random_maps,
    effects := effects,
    unit_headers := unit_headers,
    civs := civs,
    techs := techs,
    time_slice := time_slice,
    unit_kill_rate := unit_kill_rate,
    unit_kill_total := unit_kill_total,
    unit_hit_point_rate := unit_hit_point_rate,
    unit_hit_point_total := unit_hit_point_total,
    razing_kill_rate := razing_kill_rate,
    razing_kill_total := razing_kill_total,
    tech_tree := tech_tree }

/-- `DatFile.graphic_pointers` — `/repo/src/genieutils/datfile.py:116-118`. -/
def DatFile.graphic_pointers (self : DatFile) : List Int :=
  self.graphics.map fun g => match g with | none => 0 | some _ => 1

/-- The local variable `terrains_used` of `DatFile.to_bytes` — `/repo/src/genieutils/datfile.py:124-126`. -/
def DatFile.terrains_used (self : DatFile) : Int :=
  match self.terrain_restrictions with
  | [] => 0
  | r :: _ => r.passable_buildable_dmg_multiplier.length

/-- `DatFile.to_bytes` — `/repo/src/genieutils/datfile.py:120-160` with an explicit `version` argument, which the
first statement overwrites. -/
def DatFile.toBytesGiven (self : DatFile) (_version : Version) : Py Bytes :=
  match Version.ofStr self.version with
  | .error e => .error e
  | .ok version =>
    let terrain_restrictions_size := self.terrain_restrictions.length
    if ¬ (self.float_ptr_terrain_tables.length = self.terrain_pass_graphic_pointers.length
        ∧ self.terrain_pass_graphic_pointers.length = terrain_restrictions_size) then
      .error .assertionError
    else
    joinB [
      writeString 8 self.version,
      writeInt16 terrain_restrictions_size,
      writeInt16 self.terrains_used,
      writeInt32Array self.float_ptr_terrain_tables,
      writeInt32Array self.terrain_pass_graphic_pointers,
      writeClassArray TerrainRestriction.toBytes self.terrain_restrictions version,
      writeInt16 self.player_colours.length,
      writeClassArray PlayerColour.toBytes self.player_colours version,
      writeInt16 self.sounds.length,
      writeClassArray Sound.toBytes self.sounds version,
      writeInt16 self.graphics.length,
      writeInt32Array self.graphic_pointers,
      writeClassArrayOpt Graphic.toBytes self.graphics version,
      writeClass TerrainBlock.toBytes self.terrain_block version,
      writeClass RandomMaps.toBytes self.random_maps version,
      writeInt32 self.effects.length,
      writeClassArray Effect.toBytes self.effects version,
      writeInt32 self.unit_headers.length,
      writeClassArray UnitHeaders.toBytes self.unit_headers version,
      writeInt16 self.civs.length,
      writeClassArray Civ.toBytes self.civs version,
      writeInt16 self.techs.length,
      writeClassArray Tech.toBytes self.techs version,
      writeInt32 self.time_slice,
      writeInt32 self.unit_kill_rate,
      writeInt32 self.unit_kill_total,
      writeInt32 self.unit_hit_point_rate,
      writeInt32 self.unit_hit_point_total,
      writeInt32 self.razing_kill_rate,
      writeInt32 self.razing_kill_total,
      writeClass TechTree.toBytes self.tech_tree version]

/-- `dat_file.to_bytes()`: the default of the `version` parameter is `Version.UNDEFINED` — `/repo/src/genieutils/datfile.py:120`. -/
def DatFile.toBytes (self : DatFile) : Py Bytes := self.toBytesGiven .UNDEFINED

end Genie
