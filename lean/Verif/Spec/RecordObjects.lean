import Verif.Spec.Classes
import Verif.Spec.ObjectTrees
import Verif.Spec.Sized
/-! # The objects of every record class (generated by `tools/gen_heapwrite.py`) -/

namespace Genie
namespace RecordClass

/-- The object with this value (`Verif/Spec/ObjectTrees.lean`). -/
def object : (c : RecordClass) → c.Obj → ObjTree
  | .EffectCommand, x => Genie.EffectCommand.object x
  | .Effect, x => Genie.Effect.object x
  | .SoundItem, x => Genie.SoundItem.object x
  | .Sound, x => Genie.Sound.object x
  | .PlayerColour, x => Genie.PlayerColour.object x
  | .GraphicDelta, x => Genie.GraphicDelta.object x
  | .GraphicAngleSound, x => Genie.GraphicAngleSound.object x
  | .Graphic, x => Genie.Graphic.object x
  | .TerrainPassGraphic, x => Genie.TerrainPassGraphic.object x
  | .TerrainRestriction _, x => Genie.TerrainRestriction.object x
  | .FrameData, x => Genie.FrameData.object x
  | .Terrain, x => Genie.Terrain.object x
  | .TileSize, x => Genie.TileSize.object x
  | .TerrainBlock, x => Genie.TerrainBlock.object x
  | .MapUnit, x => Genie.MapUnit.object x
  | .MapTerrain, x => Genie.MapTerrain.object x
  | .MapLand, x => Genie.MapLand.object x
  | .MapElevation, x => Genie.MapElevation.object x
  | .MapInfo, x => Genie.MapInfo.object x
  | .RandomMaps, x => Genie.RandomMaps.object x
  | .ResearchResourceCost, x => Genie.ResearchResourceCost.object x
  | .ResearchLocation, x => Genie.ResearchLocation.object x
  | .Tech, x => Genie.Tech.object x
  | .Common, x => Genie.Common.object x
  | .TechTreeAge, x => Genie.TechTreeAge.object x
  | .BuildingConnection, x => Genie.BuildingConnection.object x
  | .UnitConnection, x => Genie.UnitConnection.object x
  | .ResearchConnection, x => Genie.ResearchConnection.object x
  | .TechTree, x => Genie.TechTree.object x
  | .Task, x => Genie.Task.object x
  | .ResourceStorage, x => Genie.ResourceStorage.object x
  | .DamageGraphic, x => Genie.DamageGraphic.object x
  | .DeadFish, x => Genie.DeadFish.object x
  | .Bird, x => Genie.Bird.object x
  | .AttackOrArmor, x => Genie.AttackOrArmor.object x
  | .Type50, x => Genie.Type50.object x
  | .Projectile, x => Genie.Projectile.object x
  | .ResourceCost, x => Genie.ResourceCost.object x
  | .TrainLocation, x => Genie.TrainLocation.object x
  | .Creatable, x => Genie.Creatable.object false x
  | .BuildingAnnex, x => Genie.BuildingAnnex.object x
  | .Building, x => Genie.Building.object x
  | .Unit, x => Genie.Unit.object false x
  | .UnitHeaders, x => Genie.UnitHeaders.object x
  | .Civ, x => Genie.Civ.object false x

/-- Tuples have their declared length (`Verif/Spec/Sized.lean`). -/
def Sized : (c : RecordClass) → c.Obj → Prop
  | .Creatable, x => Genie.Creatable.Sized x
  | .Building, x => Genie.Building.Sized x
  | .Unit, x => Genie.Unit.Sized x
  | .Civ, x => Genie.Civ.Sized x
  | _, _ => True

end RecordClass
end Genie
