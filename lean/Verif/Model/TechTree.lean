import Verif.Model.Common
/-!
# `/repo/src/genieutils/techtree.py`

Generated by `tools/gen_model.py` from the source text (reader and writer transcribed
independently, statement by statement).
-/

set_option linter.unusedVariables false

namespace Genie

/-- `class Common` — `/repo/src/genieutils/techtree.py:7-11`. -/
structure Common where
  slots_used : Int
  unit_research : List Int
  mode : List Int
deriving DecidableEq, Inhabited

/-- `Common.from_bytes` — `/repo/src/genieutils/techtree.py:14-19`. -/
def Common.fromBytes : Reader Common := do
  let slots_used ← readInt32
  let unit_research ← readInt32Array10
  let mode ← readInt32Array10
  return {
    slots_used := slots_used,
    unit_research := unit_research,
    mode := mode }

/-- `Common.to_bytes` — `/repo/src/genieutils/techtree.py:21-26`. -/
def Common.toBytes (version : Version) (self : Common) : Py Bytes :=
  joinB [
    writeInt32 self.slots_used,
    writeInt32Array self.unit_research,
    writeInt32Array self.mode]

/-- `class TechTreeAge` — `/repo/src/genieutils/techtree.py:29-41`. -/
structure TechTreeAge where
  id : Int
  status : Int
  buildings : List Int
  units : List Int
  techs : List Int
  common : Common
  num_building_levels : Int
  buildings_per_zone : List Int
  group_length_per_zone : List Int
  max_age_length : Int
  line_mode : Int
deriving DecidableEq, Inhabited

/-- `TechTreeAge.from_bytes` — `/repo/src/genieutils/techtree.py:44-71`. -/
def TechTreeAge.fromBytes : Reader TechTreeAge := do
  let id_ ← readInt32
  let status ← readInt8
  let buildings_count ← readInt8
  let buildings ← readInt32Array buildings_count
  let units_count ← readInt8
  let units ← readInt32Array units_count
  let techs_count ← readInt8
  let techs ← readInt32Array techs_count
  let common ← readClass Common.fromBytes
  let num_building_levels ← readInt8
  let buildings_per_zone ← readInt8Array10
  let group_length_per_zone ← readInt8Array10
  let max_age_length ← readInt8
  let line_mode ← readInt32
  return {
    id := id_,
    status := status,
    buildings := buildings,
    units := units,
    techs := techs,
    common := common,
    num_building_levels := num_building_levels,
    buildings_per_zone := buildings_per_zone,
    group_length_per_zone := group_length_per_zone,
    max_age_length := max_age_length,
    line_mode := line_mode }

/-- `TechTreeAge.to_bytes` — `/repo/src/genieutils/techtree.py:73-89`. -/
def TechTreeAge.toBytes (version : Version) (self : TechTreeAge) : Py Bytes :=
  joinB [
    writeInt32 self.id,
    writeInt8 self.status,
    writeInt8 self.buildings.length,
    writeInt32Array self.buildings,
    writeInt8 self.units.length,
    writeInt32Array self.units,
    writeInt8 self.techs.length,
    writeInt32Array self.techs,
    writeClass Common.toBytes self.common version,
    writeInt8 self.num_building_levels,
    writeInt8Array self.buildings_per_zone,
    writeInt8Array self.group_length_per_zone,
    writeInt8 self.max_age_length,
    writeInt32 self.line_mode]

/-- `class BuildingConnection` — `/repo/src/genieutils/techtree.py:92-104`. -/
structure BuildingConnection where
  id : Int
  status : Int
  buildings : List Int
  units : List Int
  techs : List Int
  common : Common
  location_in_age : Int
  units_techs_total : List Int
  units_techs_first : List Int
  line_mode : Int
  enabling_research : Int
deriving DecidableEq, Inhabited

/-- `BuildingConnection.from_bytes` — `/repo/src/genieutils/techtree.py:107-134`. -/
def BuildingConnection.fromBytes : Reader BuildingConnection := do
  let id_ ← readInt32
  let status ← readInt8
  let buildings_count ← readInt8
  let buildings ← readInt32Array buildings_count
  let units_count ← readInt8
  let units ← readInt32Array units_count
  let techs_count ← readInt8
  let techs ← readInt32Array techs_count
  let common ← readClass Common.fromBytes
  let location_in_age ← readInt8
  let units_techs_total ← readInt8Array5
  let units_techs_first ← readInt8Array5
  let line_mode ← readInt32
  let enabling_research ← readInt32
  return {
    id := id_,
    status := status,
    buildings := buildings,
    units := units,
    techs := techs,
    common := common,
    location_in_age := location_in_age,
    units_techs_total := units_techs_total,
    units_techs_first := units_techs_first,
    line_mode := line_mode,
    enabling_research := enabling_research }

/-- `BuildingConnection.to_bytes` — `/repo/src/genieutils/techtree.py:136-152`. -/
def BuildingConnection.toBytes (version : Version) (self : BuildingConnection) : Py Bytes :=
  joinB [
    writeInt32 self.id,
    writeInt8 self.status,
    writeInt8 self.buildings.length,
    writeInt32Array self.buildings,
    writeInt8 self.units.length,
    writeInt32Array self.units,
    writeInt8 self.techs.length,
    writeInt32Array self.techs,
    writeClass Common.toBytes self.common version,
    writeInt8 self.location_in_age,
    writeInt8Array self.units_techs_total,
    writeInt8Array self.units_techs_first,
    writeInt32 self.line_mode,
    writeInt32 self.enabling_research]

/-- `class UnitConnection` — `/repo/src/genieutils/techtree.py:155-166`. -/
structure UnitConnection where
  id : Int
  status : Int
  upper_building : Int
  common : Common
  vertical_line : Int
  units : List Int
  location_in_age : Int
  required_research : Int
  line_mode : Int
  enabling_research : Int
deriving DecidableEq, Inhabited

/-- `UnitConnection.from_bytes` — `/repo/src/genieutils/techtree.py:169-192`. -/
def UnitConnection.fromBytes : Reader UnitConnection := do
  let id_ ← readInt32
  let status ← readInt8
  let upper_building ← readInt32
  let common ← readClass Common.fromBytes
  let vertical_line ← readInt32
  let units_count ← readInt8
  let units ← readInt32Array units_count
  let location_in_age ← readInt32
  let required_research ← readInt32
  let line_mode ← readInt32
  let enabling_research ← readInt32
  return {
    id := id_,
    status := status,
    upper_building := upper_building,
    common := common,
    vertical_line := vertical_line,
    units := units,
    location_in_age := location_in_age,
    required_research := required_research,
    line_mode := line_mode,
    enabling_research := enabling_research }

/-- `UnitConnection.to_bytes` — `/repo/src/genieutils/techtree.py:194-207`. -/
def UnitConnection.toBytes (version : Version) (self : UnitConnection) : Py Bytes :=
  joinB [
    writeInt32 self.id,
    writeInt8 self.status,
    writeInt32 self.upper_building,
    writeClass Common.toBytes self.common version,
    writeInt32 self.vertical_line,
    writeInt8 self.units.length,
    writeInt32Array self.units,
    writeInt32 self.location_in_age,
    writeInt32 self.required_research,
    writeInt32 self.line_mode,
    writeInt32 self.enabling_research]

/-- `class ResearchConnection` — `/repo/src/genieutils/techtree.py:210-221`. -/
structure ResearchConnection where
  id : Int
  status : Int
  upper_building : Int
  buildings : List Int
  units : List Int
  techs : List Int
  common : Common
  vertical_line : Int
  location_in_age : Int
  line_mode : Int
deriving DecidableEq, Inhabited

/-- `ResearchConnection.from_bytes` — `/repo/src/genieutils/techtree.py:224-249`. -/
def ResearchConnection.fromBytes : Reader ResearchConnection := do
  let id_ ← readInt32
  let status ← readInt8
  let upper_building ← readInt32
  let buildings_count ← readInt8
  let buildings ← readInt32Array buildings_count
  let units_count ← readInt8
  let units ← readInt32Array units_count
  let techs_count ← readInt8
  let techs ← readInt32Array techs_count
  let common ← readClass Common.fromBytes
  let vertical_line ← readInt32
  let location_in_age ← readInt32
  let line_mode ← readInt32
  return {
    id := id_,
    status := status,
    upper_building := upper_building,
    buildings := buildings,
    units := units,
    techs := techs,
    common := common,
    vertical_line := vertical_line,
    location_in_age := location_in_age,
    line_mode := line_mode }

/-- `ResearchConnection.to_bytes` — `/repo/src/genieutils/techtree.py:251-266`. -/
def ResearchConnection.toBytes (version : Version) (self : ResearchConnection) : Py Bytes :=
  joinB [
    writeInt32 self.id,
    writeInt8 self.status,
    writeInt32 self.upper_building,
    writeInt8 self.buildings.length,
    writeInt32Array self.buildings,
    writeInt8 self.units.length,
    writeInt32Array self.units,
    writeInt8 self.techs.length,
    writeInt32Array self.techs,
    writeClass Common.toBytes self.common version,
    writeInt32 self.vertical_line,
    writeInt32 self.location_in_age,
    writeInt32 self.line_mode]

/-- `class TechTree` — `/repo/src/genieutils/techtree.py:269-275`. -/
structure TechTree where
  total_unit_tech_groups : Int
  tech_tree_ages : List TechTreeAge
  building_connections : List BuildingConnection
  unit_connections : List UnitConnection
  research_connections : List ResearchConnection
deriving DecidableEq, Inhabited

/-- `TechTree.from_bytes` — `/repo/src/genieutils/techtree.py:278-294`. -/
def TechTree.fromBytes : Reader TechTree := do
  let age_count ← readInt8
  let building_count ← readInt8
  let unit_count ← readInt8
  let research_count ← readInt8
  let total_unit_tech_groups ← readInt32
  let tech_tree_ages ← readClassArray TechTreeAge.fromBytes age_count
  let building_connections ← readClassArray BuildingConnection.fromBytes building_count
  let unit_connections ← readClassArray UnitConnection.fromBytes unit_count
  let research_connections ← readClassArray ResearchConnection.fromBytes research_count
  return {
    total_unit_tech_groups := total_unit_tech_groups,
    tech_tree_ages := tech_tree_ages,
    building_connections := building_connections,
    unit_connections := unit_connections,
    research_connections := research_connections }

/-- `TechTree.to_bytes` — `/repo/src/genieutils/techtree.py:296-307`. -/
def TechTree.toBytes (version : Version) (self : TechTree) : Py Bytes :=
  joinB [
    writeInt8 self.tech_tree_ages.length,
    writeInt8 self.building_connections.length,
    writeInt8 self.unit_connections.length,
    writeInt8 self.research_connections.length,
    writeInt32 self.total_unit_tech_groups,
    writeClassArray TechTreeAge.toBytes self.tech_tree_ages version,
    writeClassArray BuildingConnection.toBytes self.building_connections version,
    writeClassArray UnitConnection.toBytes self.unit_connections version,
    writeClassArray ResearchConnection.toBytes self.research_connections version]

end Genie
