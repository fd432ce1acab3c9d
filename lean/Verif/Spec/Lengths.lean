import Verif.Model.Datfile
/-!
# Tuple fields have their declared lengths

In the value model tuples are lists; `X.Lengths` says that all the tuples in an instance of `X`, at any depth, are as long as the
annotations say.  (Generated by `tools/gen_fits.py`.)
-/

namespace Genie

/-- `class Graphic` — `/repo/src/genieutils/graphic.py:81-106`. -/
structure Graphic.Lengths (x : Graphic) : Prop where
  coordinates : x.coordinates.length = 4

/-- `class Terrain` — `/repo/src/genieutils/terrainblock.py:29-68`. -/
structure Terrain.Lengths (x : Terrain) : Prop where
  colors : x.colors.length = 3
  cliff_colors : x.cliff_colors.length = 2
  terrain_dimensions : x.terrain_dimensions.length = 2

/-- `class TerrainBlock` — `/repo/src/genieutils/terrainblock.py:178-213`. -/
structure TerrainBlock.Lengths (x : TerrainBlock) : Prop where
  terrains : ∀ y ∈ x.terrains, y.Lengths

/-- `class Tech` — `/repo/src/genieutils/tech.py:54-70`. -/
structure Tech.Lengths (x : Tech) : Prop where
  required_techs : x.required_techs.length = 6
  resource_costs : x.resource_costs.length = 3

/-- `class Common` — `/repo/src/genieutils/techtree.py:7-11`. -/
structure Common.Lengths (x : Common) : Prop where
  unit_research : x.unit_research.length = 10
  mode : x.mode.length = 10

/-- `class TechTreeAge` — `/repo/src/genieutils/techtree.py:29-41`. -/
structure TechTreeAge.Lengths (x : TechTreeAge) : Prop where
  common : x.common.Lengths
  buildings_per_zone : x.buildings_per_zone.length = 10
  group_length_per_zone : x.group_length_per_zone.length = 10

/-- `class BuildingConnection` — `/repo/src/genieutils/techtree.py:92-104`. -/
structure BuildingConnection.Lengths (x : BuildingConnection) : Prop where
  common : x.common.Lengths
  units_techs_total : x.units_techs_total.length = 5
  units_techs_first : x.units_techs_first.length = 5

/-- `class UnitConnection` — `/repo/src/genieutils/techtree.py:155-166`. -/
structure UnitConnection.Lengths (x : UnitConnection) : Prop where
  common : x.common.Lengths

/-- `class ResearchConnection` — `/repo/src/genieutils/techtree.py:210-221`. -/
structure ResearchConnection.Lengths (x : ResearchConnection) : Prop where
  common : x.common.Lengths

/-- `class TechTree` — `/repo/src/genieutils/techtree.py:269-275`. -/
structure TechTree.Lengths (x : TechTree) : Prop where
  tech_tree_ages : ∀ y ∈ x.tech_tree_ages, y.Lengths
  building_connections : ∀ y ∈ x.building_connections, y.Lengths
  unit_connections : ∀ y ∈ x.unit_connections, y.Lengths
  research_connections : ∀ y ∈ x.research_connections, y.Lengths

/-- `class Type50` — `/repo/src/genieutils/unit.py:215-243`. -/
structure Type50.Lengths (x : Type50) : Prop where
  graphic_displacement : x.graphic_displacement.length = 3

/-- `class Creatable` — `/repo/src/genieutils/unit.py:473-507`. -/
structure Creatable.Lengths (x : Creatable) : Prop where
  resource_costs : x.resource_costs.length = 3
  projectile_spawning_area : x.projectile_spawning_area.length = 3

/-- `class Building` — `/repo/src/genieutils/unit.py:908-935`. -/
structure Building.Lengths (x : Building) : Prop where
  annexes : x.annexes.length = 4
  looting_table : x.looting_table.length = 6

/-- `class Unit` — `/repo/src/genieutils/unit.py:1050-1133`. -/
structure Unit.Lengths (x : Unit) : Prop where
  standing_graphic : x.standing_graphic.length = 2
  placement_side_terrain : x.placement_side_terrain.length = 2
  placement_terrain : x.placement_terrain.length = 2
  clearance_size : x.clearance_size.length = 2
  resource_storages : x.resource_storages.length = 3
  type_50 : ∀ y, x.type_50 = some y → y.Lengths
  creatable : ∀ y, x.creatable = some y → y.Lengths
  building : ∀ y, x.building = some y → y.Lengths

/-- `class Civ` — `/repo/src/genieutils/civ.py:8-16`. -/
structure Civ.Lengths (x : Civ) : Prop where
  units : ∀ y, some y ∈ x.units → y.Lengths

/-- `class DatFile` — `/repo/src/genieutils/datfile.py:21-43`. -/
structure DatFile.Lengths (x : DatFile) : Prop where
  graphics : ∀ y, some y ∈ x.graphics → y.Lengths
  terrain_block : x.terrain_block.Lengths
  civs : ∀ y ∈ x.civs, y.Lengths
  techs : ∀ y ∈ x.techs, y.Lengths
  tech_tree : x.tech_tree.Lengths

end Genie
