import Verif.Spec.Classes
import Verif.Spec.Sizes
/-! # Layout and size, as tables over the record classes (generated by `tools/gen_sizes.py`) -/

namespace Genie.RecordClass

/-- The items of a record. -/
def layout : (c : RecordClass) → Version → c.Obj → List Item
  | .EffectCommand => Genie.EffectCommand.layout
  | .Effect => Genie.Effect.layout
  | .SoundItem => Genie.SoundItem.layout
  | .Sound => Genie.Sound.layout
  | .PlayerColour => Genie.PlayerColour.layout
  | .GraphicDelta => Genie.GraphicDelta.layout
  | .GraphicAngleSound => Genie.GraphicAngleSound.layout
  | .Graphic => Genie.Graphic.layout
  | .TerrainPassGraphic => Genie.TerrainPassGraphic.layout
  | .FrameData => Genie.FrameData.layout
  | .Terrain => Genie.Terrain.layout
  | .TileSize => Genie.TileSize.layout
  | .TerrainBlock => Genie.TerrainBlock.layout
  | .MapUnit => Genie.MapUnit.layout
  | .MapTerrain => Genie.MapTerrain.layout
  | .MapLand => Genie.MapLand.layout
  | .MapElevation => Genie.MapElevation.layout
  | .MapInfo => Genie.MapInfo.layout
  | .RandomMaps => Genie.RandomMaps.layout
  | .ResearchResourceCost => Genie.ResearchResourceCost.layout
  | .ResearchLocation => Genie.ResearchLocation.layout
  | .Tech => Genie.Tech.layout
  | .Common => Genie.Common.layout
  | .TechTreeAge => Genie.TechTreeAge.layout
  | .BuildingConnection => Genie.BuildingConnection.layout
  | .UnitConnection => Genie.UnitConnection.layout
  | .ResearchConnection => Genie.ResearchConnection.layout
  | .TechTree => Genie.TechTree.layout
  | .ResourceStorage => Genie.ResourceStorage.layout
  | .DamageGraphic => Genie.DamageGraphic.layout
  | .DeadFish => Genie.DeadFish.layout
  | .Task => Genie.Task.layout
  | .Bird => Genie.Bird.layout
  | .AttackOrArmor => Genie.AttackOrArmor.layout
  | .Type50 => Genie.Type50.layout
  | .Projectile => Genie.Projectile.layout
  | .ResourceCost => Genie.ResourceCost.layout
  | .TrainLocation => Genie.TrainLocation.layout
  | .Creatable => Genie.Creatable.layout
  | .BuildingAnnex => Genie.BuildingAnnex.layout
  | .Building => Genie.Building.layout
  | .Unit => Genie.Unit.layout
  | .UnitHeaders => Genie.UnitHeaders.layout
  | .Civ => Genie.Civ.layout
  | .TerrainRestriction _ => Genie.TerrainRestriction.layout

/-- The number of bytes of a record. -/
def size : (c : RecordClass) → Version → c.Obj → Nat
  | .EffectCommand => Genie.EffectCommand.size
  | .Effect => Genie.Effect.size
  | .SoundItem => Genie.SoundItem.size
  | .Sound => Genie.Sound.size
  | .PlayerColour => Genie.PlayerColour.size
  | .GraphicDelta => Genie.GraphicDelta.size
  | .GraphicAngleSound => Genie.GraphicAngleSound.size
  | .Graphic => Genie.Graphic.size
  | .TerrainPassGraphic => Genie.TerrainPassGraphic.size
  | .FrameData => Genie.FrameData.size
  | .Terrain => Genie.Terrain.size
  | .TileSize => Genie.TileSize.size
  | .TerrainBlock => Genie.TerrainBlock.size
  | .MapUnit => Genie.MapUnit.size
  | .MapTerrain => Genie.MapTerrain.size
  | .MapLand => Genie.MapLand.size
  | .MapElevation => Genie.MapElevation.size
  | .MapInfo => Genie.MapInfo.size
  | .RandomMaps => Genie.RandomMaps.size
  | .ResearchResourceCost => Genie.ResearchResourceCost.size
  | .ResearchLocation => Genie.ResearchLocation.size
  | .Tech => Genie.Tech.size
  | .Common => Genie.Common.size
  | .TechTreeAge => Genie.TechTreeAge.size
  | .BuildingConnection => Genie.BuildingConnection.size
  | .UnitConnection => Genie.UnitConnection.size
  | .ResearchConnection => Genie.ResearchConnection.size
  | .TechTree => Genie.TechTree.size
  | .ResourceStorage => Genie.ResourceStorage.size
  | .DamageGraphic => Genie.DamageGraphic.size
  | .DeadFish => Genie.DeadFish.size
  | .Task => Genie.Task.size
  | .Bird => Genie.Bird.size
  | .AttackOrArmor => Genie.AttackOrArmor.size
  | .Type50 => Genie.Type50.size
  | .Projectile => Genie.Projectile.size
  | .ResourceCost => Genie.ResourceCost.size
  | .TrainLocation => Genie.TrainLocation.size
  | .Creatable => Genie.Creatable.size
  | .BuildingAnnex => Genie.BuildingAnnex.size
  | .Building => Genie.Building.size
  | .Unit => Genie.Unit.size
  | .UnitHeaders => Genie.UnitHeaders.size
  | .Civ => Genie.Civ.size
  | .TerrainRestriction _ => Genie.TerrainRestriction.size

/-- The classes whose records always have the same number of bytes, and this number. -/
def constantSize : RecordClass → Option Nat
  | .EffectCommand => some 11
  | .PlayerColour => some 36
  | .GraphicDelta => some 16
  | .GraphicAngleSound => some 24
  | .TerrainPassGraphic => some 16
  | .FrameData => some 6
  | .TileSize => some 6
  | .MapUnit => some 44
  | .MapTerrain => some 24
  | .MapLand => some 44
  | .MapElevation => some 24
  | .ResearchResourceCost => some 5
  | .ResearchLocation => some 9
  | .ResourceStorage => some 7
  | .DamageGraphic => some 5
  | .DeadFish => some 41
  | .AttackOrArmor => some 4
  | .Projectile => some 9
  | .ResourceCost => some 6
  | .BuildingAnnex => some 10
  | _ => none

end Genie.RecordClass
