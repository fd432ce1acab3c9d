import Verif.Model.Unit
/-!
# `/repo/src/genieutils/civ.py`
-/

namespace Genie

/-- `class Civ` — `/repo/src/genieutils/civ.py:8-16`. -/
structure Civ where
  player_type : Int
  name : PyStr
  tech_tree_id : Int
  team_bonus_id : Int
  resources : List PyFloat
  icon_set : Int
  units : List (Option Unit)
deriving DecidableEq, Inhabited

/-- `Civ.from_bytes` — `/repo/src/genieutils/civ.py:18-38`. -/
def Civ.fromBytes : Reader Civ := do
  let player_type ← readInt8
  let name ← readDebugString
  let resources_size ← readInt16
  let tech_tree_id ← readInt16
  let team_bonus_id ← readInt16
  let resources ← readFloatArray resources_size
  let icon_set ← readInt8
  let units_size ← readInt16
  let unit_pointers ← readInt32Array units_size
  let units ← readClassArrayWithPointers Unit.fromBytes units_size unit_pointers
  return {
    player_type := player_type,
    name := name,
    tech_tree_id := tech_tree_id,
    team_bonus_id := team_bonus_id,
    resources := resources,
    icon_set := icon_set,
    units := units }

/-- `Civ.unit_pointers` — `/repo/src/genieutils/civ.py:40-42`. -/
def Civ.unit_pointers (self : Civ) : List Int :=
  self.units.map fun u => match u with | none => 0 | some _ => 1

/-- `Civ.to_bytes` — `/repo/src/genieutils/civ.py:44-56`. -/
def Civ.toBytes (version : Version) (self : Civ) : Py Bytes :=
  joinB [
    writeInt8 self.player_type,
    writeDebugString self.name,
    writeInt16 self.resources.length,
    writeInt16 self.tech_tree_id,
    writeInt16 self.team_bonus_id,
    writeFloatArray self.resources,
    writeInt8 self.icon_set,
    writeInt16 self.units.length,
    writeInt32Array self.unit_pointers,
    writeClassArrayOpt Unit.toBytes self.units version]

end Genie
