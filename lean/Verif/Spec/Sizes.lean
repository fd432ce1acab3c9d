import Verif.Spec.Layout
/-!
# The number of bytes of every record

As arithmetic in the lengths of the lists and the UTF-8 lengths of the texts (generated by `tools/gen_sizes.py`).
-/

namespace Genie
set_option linter.unusedVariables false

/-- Bytes of an optional part that is written under a condition. -/
def partSize (c : Prop) [Decidable c] (f : α → Nat) (o : Option α) : Nat :=
  if c then (match o with | none => 0 | some a => f a) else 0

/-- Bytes of a `EffectCommand`. -/
def EffectCommand.size (v : Version) (x : EffectCommand) : Nat :=
  11

/-- Bytes of a `Effect`. -/
def Effect.size (v : Version) (x : Effect) : Nat :=
  6 + utf8Len x.name + 11 * x.effect_commands.length

/-- Bytes of a `SoundItem`. -/
def SoundItem.size (v : Version) (x : SoundItem) : Nat :=
  14 + utf8Len x.filename

/-- Bytes of a `Sound`. -/
def Sound.size (v : Version) (x : Sound) : Nat :=
  12 + (x.items.map (SoundItem.size v)).sum

/-- Bytes of a `PlayerColour`. -/
def PlayerColour.size (v : Version) (x : PlayerColour) : Nat :=
  36

/-- Bytes of a `GraphicDelta`. -/
def GraphicDelta.size (v : Version) (x : GraphicDelta) : Nat :=
  16

/-- Bytes of a `GraphicAngleSound`. -/
def GraphicAngleSound.size (v : Version) (x : GraphicAngleSound) : Nat :=
  24

/-- Bytes of a `Graphic`. -/
def Graphic.size (v : Version) (x : Graphic) : Nat :=
  52 + utf8Len x.name + utf8Len x.file_name + utf8Len x.particle_effect_name + 2 * x.coordinates.length + 16 *
    x.deltas.length + 24 * x.angle_sounds.length

/-- Bytes of a `TerrainPassGraphic`. -/
def TerrainPassGraphic.size (v : Version) (x : TerrainPassGraphic) : Nat :=
  16

/-- Bytes of a `TerrainRestriction`. -/
def TerrainRestriction.size (v : Version) (x : TerrainRestriction) : Nat :=
  4 * x.passable_buildable_dmg_multiplier.length + 16 * x.terrain_pass_graphics.length

/-- Bytes of a `FrameData`. -/
def FrameData.size (v : Version) (x : FrameData) : Nat :=
  6

/-- Bytes of a `Terrain`. -/
def Terrain.size (v : Version) (x : Terrain) : Nat :=
  79 + utf8Len x.name + utf8Len x.name_2 + utf8Len x.overlay_mask_name + x.colors.length + x.cliff_colors.length + 6 *
    x.frame_data.length + 2 * x.terrain_dimensions.length + 2 * x.terrain_unit_masked_density.length + 2 *
    x.terrain_unit_id.length + 2 * x.terrain_unit_density.length + x.terrain_unit_centering.length

/-- Bytes of a `TileSize`. -/
def TileSize.size (v : Version) (x : TileSize) : Nat :=
  6

/-- Bytes of a `TerrainBlock`. -/
def TerrainBlock.size (v : Version) (x : TerrainBlock) : Nat :=
  89 + 6 * x.tile_sizes.length + (x.terrains.map (Terrain.size v)).sum

/-- Bytes of a `MapUnit`. -/
def MapUnit.size (v : Version) (x : MapUnit) : Nat :=
  44

/-- Bytes of a `MapTerrain`. -/
def MapTerrain.size (v : Version) (x : MapTerrain) : Nat :=
  24

/-- Bytes of a `MapLand`. -/
def MapLand.size (v : Version) (x : MapLand) : Nat :=
  44

/-- Bytes of a `MapElevation`. -/
def MapElevation.size (v : Version) (x : MapElevation) : Nat :=
  24

/-- Bytes of a `MapInfo`. -/
def MapInfo.size (v : Version) (x : MapInfo) : Nat :=
  72 + 44 * x.map_lands.length + 24 * x.map_terrains.length + 44 * x.map_units.length + 24 * x.map_elevations.length

/-- Bytes of a `RandomMaps`. -/
def RandomMaps.size (v : Version) (x : RandomMaps) : Nat :=
  8 + (x.map_info_1.map (MapInfo.size v)).sum + (x.map_info_2.map (MapInfo.size v)).sum

/-- Bytes of a `ResearchResourceCost`. -/
def ResearchResourceCost.size (v : Version) (x : ResearchResourceCost) : Nat :=
  5

/-- Bytes of a `ResearchLocation`. -/
def ResearchLocation.size (v : Version) (x : ResearchLocation) : Nat :=
  9

/-- Bytes of a `Tech`. -/
def Tech.size (v : Version) (x : Tech) : Nat :=
  if 88 ≤ v.num then 35 + 2 * x.required_techs.length + 5 * x.resource_costs.length + utf8Len x.name + 9 *
    x.research_locations.length else 42 + 2 * x.required_techs.length + 5 * x.resource_costs.length + utf8Len x.name

/-- Bytes of a `Common`. -/
def Common.size (v : Version) (x : Common) : Nat :=
  4 + 4 * x.unit_research.length + 4 * x.mode.length

/-- Bytes of a `TechTreeAge`. -/
def TechTreeAge.size (v : Version) (x : TechTreeAge) : Nat :=
  14 + 4 * x.buildings.length + 4 * x.units.length + 4 * x.techs.length + Common.size v x.common +
    x.buildings_per_zone.length + x.group_length_per_zone.length

/-- Bytes of a `BuildingConnection`. -/
def BuildingConnection.size (v : Version) (x : BuildingConnection) : Nat :=
  17 + 4 * x.buildings.length + 4 * x.units.length + 4 * x.techs.length + Common.size v x.common +
    x.units_techs_total.length + x.units_techs_first.length

/-- Bytes of a `UnitConnection`. -/
def UnitConnection.size (v : Version) (x : UnitConnection) : Nat :=
  30 + Common.size v x.common + 4 * x.units.length

/-- Bytes of a `ResearchConnection`. -/
def ResearchConnection.size (v : Version) (x : ResearchConnection) : Nat :=
  24 + 4 * x.buildings.length + 4 * x.units.length + 4 * x.techs.length + Common.size v x.common

/-- Bytes of a `TechTree`. -/
def TechTree.size (v : Version) (x : TechTree) : Nat :=
  8 + (x.tech_tree_ages.map (TechTreeAge.size v)).sum + (x.building_connections.map (BuildingConnection.size v)).sum +
    (x.unit_connections.map (UnitConnection.size v)).sum + (x.research_connections.map (ResearchConnection.size v)).sum

/-- Bytes of a `Task`. -/
def Task.size (v : Version) (x : Task) : Nat :=
  if 88 ≤ v.num then 69 else 67

/-- Bytes of a `UnitHeaders`. -/
def UnitHeaders.size (v : Version) (x : UnitHeaders) : Nat :=
  1 + if x.exists_ = 0 then 0 else match x.task_list with | none => 0 | some tasks => 2 + (tasks.map (Task.size v)).sum

/-- Bytes of a `ResourceStorage`. -/
def ResourceStorage.size (v : Version) (x : ResourceStorage) : Nat :=
  7

/-- Bytes of a `DamageGraphic`. -/
def DamageGraphic.size (v : Version) (x : DamageGraphic) : Nat :=
  5

/-- Bytes of a `DeadFish`. -/
def DeadFish.size (v : Version) (x : DeadFish) : Nat :=
  41

/-- Bytes of a `Bird`. -/
def Bird.size (v : Version) (x : Bird) : Nat :=
  26 + 2 * x.drop_sites.length + (x.tasks.map (Task.size v)).sum + (if 78 ≤ v.num then 2 else 0)

/-- Bytes of a `AttackOrArmor`. -/
def AttackOrArmor.size (v : Version) (x : AttackOrArmor) : Nat :=
  4

/-- Bytes of a `Type50`. -/
def Type50.size (v : Version) (x : Type50) : Nat :=
  58 + 4 * x.attacks.length + 4 * x.armours.length + 4 * x.graphic_displacement.length + (if 84 ≤ v.num then 16 else 0)

/-- Bytes of a `Projectile`. -/
def Projectile.size (v : Version) (x : Projectile) : Nat :=
  9

/-- Bytes of a `ResourceCost`. -/
def ResourceCost.size (v : Version) (x : ResourceCost) : Nat :=
  6

/-- Bytes of a `TrainLocation`. -/
def TrainLocation.size (v : Version) (x : TrainLocation) : Nat :=
  if 88 ≤ v.num then 9 else 5

/-- Bytes of a `Creatable`. -/
def Creatable.size (v : Version) (x : Creatable) : Nat :=
  6 * x.resource_costs.length + (if 88 ≤ v.num then 99 + 9 * x.train_locations.length else if 84 ≤ v.num then 102 else 77)

/-- Bytes of a `BuildingAnnex`. -/
def BuildingAnnex.size (v : Version) (x : BuildingAnnex) : Nat :=
  10

/-- Bytes of a `Building`. -/
def Building.size (v : Version) (x : Building) : Nat :=
  58 + 10 * x.annexes.length

/-- Bytes of a `Unit`. -/
def Unit.size (v : Version) (x : Unit) : Nat :=
  (if 88 ≤ v.num then 167 else 171) + 7 * x.resource_storages.length + 5 * x.damage_graphics.length + utf8Len x.name +
    partSize (x.type ≠ 90 ∧ 20 ≤ x.type) (fun _ => 4) x.speed + partSize (x.type ≠ 90 ∧ 30 ≤ x.type) (fun _ => 41) x.dead_fish
    + partSize (x.type ≠ 90 ∧ 40 ≤ x.type) (Bird.size v) x.bird + partSize (x.type ≠ 90 ∧ 50 ≤ x.type) (Type50.size v)
    x.type_50 + partSize (x.type = 60) (fun _ => 9) x.projectile + partSize (x.type ≠ 90 ∧ 70 ≤ x.type) (Creatable.size v)
    x.creatable + partSize (x.type = 80) (Building.size v) x.building

/-- Bytes of a `Civ`. -/
def Civ.size (v : Version) (x : Civ) : Nat :=
  14 + utf8Len x.name + 4 * x.resources.length + 4 * x.units.length + ((x.units.filterMap id).map (Unit.size v)).sum

/-- Bytes of a whole file of version `v`. -/
def DatFile.size (v : Version) (x : DatFile) : Nat :=
  50 + 4 * x.float_ptr_terrain_tables.length + 4 * x.terrain_pass_graphic_pointers.length + (x.terrain_restrictions.map
    (TerrainRestriction.size v)).sum + 36 * x.player_colours.length + (x.sounds.map (Sound.size v)).sum + TerrainBlock.size v
    x.terrain_block + RandomMaps.size v x.random_maps + (x.effects.map (Effect.size v)).sum + (x.unit_headers.map
    (UnitHeaders.size v)).sum + (x.civs.map (Civ.size v)).sum + (x.techs.map (Tech.size v)).sum + TechTree.size v x.tech_tree
    + max 8 (utf8Len x.version) + 4 * x.graphics.length + ((x.graphics.filterMap id).map (Graphic.size v)).sum

end Genie
