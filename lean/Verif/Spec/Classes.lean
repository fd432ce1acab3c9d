import Verif.Spec.Versioned
/-!
# The table of all record classes

One constructor per class of the package with `from_bytes` and `to_bytes`, except `DatFile` (whose reader
sets the version itself).  `TerrainRestriction n` is the class read with `from_bytes_with_count(content, n)`.
(Generated by `tools/gen_classes.py`.)
-/

namespace Genie

/-- The record classes. -/
inductive RecordClass where
  | EffectCommand
  | Effect
  | SoundItem
  | Sound
  | PlayerColour
  | GraphicDelta
  | GraphicAngleSound
  | Graphic
  | TerrainPassGraphic
  | FrameData
  | Terrain
  | TileSize
  | TerrainBlock
  | MapUnit
  | MapTerrain
  | MapLand
  | MapElevation
  | MapInfo
  | RandomMaps
  | ResearchResourceCost
  | ResearchLocation
  | Tech
  | Common
  | TechTreeAge
  | BuildingConnection
  | UnitConnection
  | ResearchConnection
  | TechTree
  | ResourceStorage
  | DamageGraphic
  | DeadFish
  | Task
  | Bird
  | AttackOrArmor
  | Type50
  | Projectile
  | ResourceCost
  | TrainLocation
  | Creatable
  | BuildingAnnex
  | Building
  | Unit
  | UnitHeaders
  | Civ
  | TerrainRestriction (terrain_count : Nat)

namespace RecordClass

/-- The objects of a class. -/
abbrev Obj : RecordClass → Type
  | .EffectCommand => Genie.EffectCommand
  | .Effect => Genie.Effect
  | .SoundItem => Genie.SoundItem
  | .Sound => Genie.Sound
  | .PlayerColour => Genie.PlayerColour
  | .GraphicDelta => Genie.GraphicDelta
  | .GraphicAngleSound => Genie.GraphicAngleSound
  | .Graphic => Genie.Graphic
  | .TerrainPassGraphic => Genie.TerrainPassGraphic
  | .FrameData => Genie.FrameData
  | .Terrain => Genie.Terrain
  | .TileSize => Genie.TileSize
  | .TerrainBlock => Genie.TerrainBlock
  | .MapUnit => Genie.MapUnit
  | .MapTerrain => Genie.MapTerrain
  | .MapLand => Genie.MapLand
  | .MapElevation => Genie.MapElevation
  | .MapInfo => Genie.MapInfo
  | .RandomMaps => Genie.RandomMaps
  | .ResearchResourceCost => Genie.ResearchResourceCost
  | .ResearchLocation => Genie.ResearchLocation
  | .Tech => Genie.Tech
  | .Common => Genie.Common
  | .TechTreeAge => Genie.TechTreeAge
  | .BuildingConnection => Genie.BuildingConnection
  | .UnitConnection => Genie.UnitConnection
  | .ResearchConnection => Genie.ResearchConnection
  | .TechTree => Genie.TechTree
  | .ResourceStorage => Genie.ResourceStorage
  | .DamageGraphic => Genie.DamageGraphic
  | .DeadFish => Genie.DeadFish
  | .Task => Genie.Task
  | .Bird => Genie.Bird
  | .AttackOrArmor => Genie.AttackOrArmor
  | .Type50 => Genie.Type50
  | .Projectile => Genie.Projectile
  | .ResourceCost => Genie.ResourceCost
  | .TrainLocation => Genie.TrainLocation
  | .Creatable => Genie.Creatable
  | .BuildingAnnex => Genie.BuildingAnnex
  | .Building => Genie.Building
  | .Unit => Genie.Unit
  | .UnitHeaders => Genie.UnitHeaders
  | .Civ => Genie.Civ
  | .TerrainRestriction _ => Genie.TerrainRestriction

/-- `from_bytes` of a class. -/
def fromBytes : (c : RecordClass) → Reader c.Obj
  | .EffectCommand => Genie.EffectCommand.fromBytes
  | .Effect => Genie.Effect.fromBytes
  | .SoundItem => Genie.SoundItem.fromBytes
  | .Sound => Genie.Sound.fromBytes
  | .PlayerColour => Genie.PlayerColour.fromBytes
  | .GraphicDelta => Genie.GraphicDelta.fromBytes
  | .GraphicAngleSound => Genie.GraphicAngleSound.fromBytes
  | .Graphic => Genie.Graphic.fromBytes
  | .TerrainPassGraphic => Genie.TerrainPassGraphic.fromBytes
  | .FrameData => Genie.FrameData.fromBytes
  | .Terrain => Genie.Terrain.fromBytes
  | .TileSize => Genie.TileSize.fromBytes
  | .TerrainBlock => Genie.TerrainBlock.fromBytes
  | .MapUnit => Genie.MapUnit.fromBytes
  | .MapTerrain => Genie.MapTerrain.fromBytes
  | .MapLand => Genie.MapLand.fromBytes
  | .MapElevation => Genie.MapElevation.fromBytes
  | .MapInfo => Genie.MapInfo.fromBytes
  | .RandomMaps => Genie.RandomMaps.fromBytes
  | .ResearchResourceCost => Genie.ResearchResourceCost.fromBytes
  | .ResearchLocation => Genie.ResearchLocation.fromBytes
  | .Tech => Genie.Tech.fromBytes
  | .Common => Genie.Common.fromBytes
  | .TechTreeAge => Genie.TechTreeAge.fromBytes
  | .BuildingConnection => Genie.BuildingConnection.fromBytes
  | .UnitConnection => Genie.UnitConnection.fromBytes
  | .ResearchConnection => Genie.ResearchConnection.fromBytes
  | .TechTree => Genie.TechTree.fromBytes
  | .ResourceStorage => Genie.ResourceStorage.fromBytes
  | .DamageGraphic => Genie.DamageGraphic.fromBytes
  | .DeadFish => Genie.DeadFish.fromBytes
  | .Task => Genie.Task.fromBytes
  | .Bird => Genie.Bird.fromBytes
  | .AttackOrArmor => Genie.AttackOrArmor.fromBytes
  | .Type50 => Genie.Type50.fromBytes
  | .Projectile => Genie.Projectile.fromBytes
  | .ResourceCost => Genie.ResourceCost.fromBytes
  | .TrainLocation => Genie.TrainLocation.fromBytes
  | .Creatable => Genie.Creatable.fromBytes
  | .BuildingAnnex => Genie.BuildingAnnex.fromBytes
  | .Building => Genie.Building.fromBytes
  | .Unit => Genie.Unit.fromBytes
  | .UnitHeaders => Genie.UnitHeaders.fromBytes
  | .Civ => Genie.Civ.fromBytes
  | .TerrainRestriction n => Genie.TerrainRestriction.fromBytesWithCount n

/-- `to_bytes` of a class. -/
def toBytes : (c : RecordClass) → Version → c.Obj → Py Bytes
  | .EffectCommand => Genie.EffectCommand.toBytes
  | .Effect => Genie.Effect.toBytes
  | .SoundItem => Genie.SoundItem.toBytes
  | .Sound => Genie.Sound.toBytes
  | .PlayerColour => Genie.PlayerColour.toBytes
  | .GraphicDelta => Genie.GraphicDelta.toBytes
  | .GraphicAngleSound => Genie.GraphicAngleSound.toBytes
  | .Graphic => Genie.Graphic.toBytes
  | .TerrainPassGraphic => Genie.TerrainPassGraphic.toBytes
  | .FrameData => Genie.FrameData.toBytes
  | .Terrain => Genie.Terrain.toBytes
  | .TileSize => Genie.TileSize.toBytes
  | .TerrainBlock => Genie.TerrainBlock.toBytes
  | .MapUnit => Genie.MapUnit.toBytes
  | .MapTerrain => Genie.MapTerrain.toBytes
  | .MapLand => Genie.MapLand.toBytes
  | .MapElevation => Genie.MapElevation.toBytes
  | .MapInfo => Genie.MapInfo.toBytes
  | .RandomMaps => Genie.RandomMaps.toBytes
  | .ResearchResourceCost => Genie.ResearchResourceCost.toBytes
  | .ResearchLocation => Genie.ResearchLocation.toBytes
  | .Tech => Genie.Tech.toBytes
  | .Common => Genie.Common.toBytes
  | .TechTreeAge => Genie.TechTreeAge.toBytes
  | .BuildingConnection => Genie.BuildingConnection.toBytes
  | .UnitConnection => Genie.UnitConnection.toBytes
  | .ResearchConnection => Genie.ResearchConnection.toBytes
  | .TechTree => Genie.TechTree.toBytes
  | .ResourceStorage => Genie.ResourceStorage.toBytes
  | .DamageGraphic => Genie.DamageGraphic.toBytes
  | .DeadFish => Genie.DeadFish.toBytes
  | .Task => Genie.Task.toBytes
  | .Bird => Genie.Bird.toBytes
  | .AttackOrArmor => Genie.AttackOrArmor.toBytes
  | .Type50 => Genie.Type50.toBytes
  | .Projectile => Genie.Projectile.toBytes
  | .ResourceCost => Genie.ResourceCost.toBytes
  | .TrainLocation => Genie.TrainLocation.toBytes
  | .Creatable => Genie.Creatable.toBytes
  | .BuildingAnnex => Genie.BuildingAnnex.toBytes
  | .Building => Genie.Building.toBytes
  | .Unit => Genie.Unit.toBytes
  | .UnitHeaders => Genie.UnitHeaders.toBytes
  | .Civ => Genie.Civ.toBytes
  | .TerrainRestriction _ => Genie.TerrainRestriction.toBytes

/-- The objects of a class that a file of the given version can hold. -/
def WF : (c : RecordClass) → Version → c.Obj → Prop
  | .EffectCommand => Genie.EffectCommand.WF
  | .Effect => Genie.Effect.WF
  | .SoundItem => Genie.SoundItem.WF
  | .Sound => Genie.Sound.WF
  | .PlayerColour => Genie.PlayerColour.WF
  | .GraphicDelta => Genie.GraphicDelta.WF
  | .GraphicAngleSound => Genie.GraphicAngleSound.WF
  | .Graphic => Genie.Graphic.WF
  | .TerrainPassGraphic => Genie.TerrainPassGraphic.WF
  | .FrameData => Genie.FrameData.WF
  | .Terrain => Genie.Terrain.WF
  | .TileSize => Genie.TileSize.WF
  | .TerrainBlock => Genie.TerrainBlock.WF
  | .MapUnit => Genie.MapUnit.WF
  | .MapTerrain => Genie.MapTerrain.WF
  | .MapLand => Genie.MapLand.WF
  | .MapElevation => Genie.MapElevation.WF
  | .MapInfo => Genie.MapInfo.WF
  | .RandomMaps => Genie.RandomMaps.WF
  | .ResearchResourceCost => Genie.ResearchResourceCost.WF
  | .ResearchLocation => Genie.ResearchLocation.WF
  | .Tech => Genie.Tech.WF
  | .Common => Genie.Common.WF
  | .TechTreeAge => Genie.TechTreeAge.WF
  | .BuildingConnection => Genie.BuildingConnection.WF
  | .UnitConnection => Genie.UnitConnection.WF
  | .ResearchConnection => Genie.ResearchConnection.WF
  | .TechTree => Genie.TechTree.WF
  | .ResourceStorage => Genie.ResourceStorage.WF
  | .DamageGraphic => Genie.DamageGraphic.WF
  | .DeadFish => Genie.DeadFish.WF
  | .Task => Genie.Task.WF
  | .Bird => Genie.Bird.WF
  | .AttackOrArmor => Genie.AttackOrArmor.WF
  | .Type50 => Genie.Type50.WF
  | .Projectile => Genie.Projectile.WF
  | .ResourceCost => Genie.ResourceCost.WF
  | .TrainLocation => Genie.TrainLocation.WF
  | .Creatable => Genie.Creatable.WF
  | .BuildingAnnex => Genie.BuildingAnnex.WF
  | .Building => Genie.Building.WF
  | .Unit => Genie.Unit.WF
  | .UnitHeaders => Genie.UnitHeaders.WF
  | .Civ => Genie.Civ.WF
  | .TerrainRestriction n => fun v => Genie.TerrainRestriction.WF v n

end RecordClass
end Genie
