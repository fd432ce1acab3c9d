import Verif.Proof.Heap.Written
import Verif.Spec.RecordObjects
/-! # Every record class is written alike (generated by `tools/gen_heapwrite.py`) -/

namespace Genie

theorem RecordClass.written {H : Heap} {n : Nat} {ver : Version} (hn : 4 ≤ n) : (c : RecordClass) → (x : c.Obj) → c.Sized x → (v : HVal) →
    Shows H v (c.object x) → W.toBytes H n v ver = c.toBytes ver x
  | .EffectCommand, x, hs, v, h => Genie.EffectCommand.written (by omega) x v h
  | .Effect, x, hs, v, h => Genie.Effect.written (by omega) x v h
  | .SoundItem, x, hs, v, h => Genie.SoundItem.written (by omega) x v h
  | .Sound, x, hs, v, h => Genie.Sound.written (by omega) x v h
  | .PlayerColour, x, hs, v, h => Genie.PlayerColour.written (by omega) x v h
  | .GraphicDelta, x, hs, v, h => Genie.GraphicDelta.written (by omega) x v h
  | .GraphicAngleSound, x, hs, v, h => Genie.GraphicAngleSound.written (by omega) x v h
  | .Graphic, x, hs, v, h => Genie.Graphic.written (by omega) x v h
  | .TerrainPassGraphic, x, hs, v, h => Genie.TerrainPassGraphic.written (by omega) x v h
  | .TerrainRestriction _, x, hs, v, h => Genie.TerrainRestriction.written (by omega) x v h
  | .FrameData, x, hs, v, h => Genie.FrameData.written (by omega) x v h
  | .Terrain, x, hs, v, h => Genie.Terrain.written (by omega) x v h
  | .TileSize, x, hs, v, h => Genie.TileSize.written (by omega) x v h
  | .TerrainBlock, x, hs, v, h => Genie.TerrainBlock.written (by omega) x v h
  | .MapUnit, x, hs, v, h => Genie.MapUnit.written (by omega) x v h
  | .MapTerrain, x, hs, v, h => Genie.MapTerrain.written (by omega) x v h
  | .MapLand, x, hs, v, h => Genie.MapLand.written (by omega) x v h
  | .MapElevation, x, hs, v, h => Genie.MapElevation.written (by omega) x v h
  | .MapInfo, x, hs, v, h => Genie.MapInfo.written (by omega) x v h
  | .RandomMaps, x, hs, v, h => Genie.RandomMaps.written (by omega) x v h
  | .ResearchResourceCost, x, hs, v, h => Genie.ResearchResourceCost.written (by omega) x v h
  | .ResearchLocation, x, hs, v, h => Genie.ResearchLocation.written (by omega) x v h
  | .Tech, x, hs, v, h => Genie.Tech.written (by omega) x v h
  | .Common, x, hs, v, h => Genie.Common.written (by omega) x v h
  | .TechTreeAge, x, hs, v, h => Genie.TechTreeAge.written (by omega) x v h
  | .BuildingConnection, x, hs, v, h => Genie.BuildingConnection.written (by omega) x v h
  | .UnitConnection, x, hs, v, h => Genie.UnitConnection.written (by omega) x v h
  | .ResearchConnection, x, hs, v, h => Genie.ResearchConnection.written (by omega) x v h
  | .TechTree, x, hs, v, h => Genie.TechTree.written (by omega) x v h
  | .Task, x, hs, v, h => Genie.Task.written (by omega) x v h
  | .ResourceStorage, x, hs, v, h => Genie.ResourceStorage.written (by omega) x v h
  | .DamageGraphic, x, hs, v, h => Genie.DamageGraphic.written (by omega) x v h
  | .DeadFish, x, hs, v, h => Genie.DeadFish.written (by omega) x v h
  | .Bird, x, hs, v, h => Genie.Bird.written (by omega) x v h
  | .AttackOrArmor, x, hs, v, h => Genie.AttackOrArmor.written (by omega) x v h
  | .Type50, x, hs, v, h => Genie.Type50.written (by omega) x v h
  | .Projectile, x, hs, v, h => Genie.Projectile.written (by omega) x v h
  | .ResourceCost, x, hs, v, h => Genie.ResourceCost.written (by omega) x v h
  | .TrainLocation, x, hs, v, h => Genie.TrainLocation.written (by omega) x v h
  | .Creatable, x, hs, v, h => Genie.Creatable.written (by omega) x hs v h
  | .BuildingAnnex, x, hs, v, h => Genie.BuildingAnnex.written (by omega) x v h
  | .Building, x, hs, v, h => Genie.Building.written (by omega) x hs v h
  | .Unit, x, hs, v, h => Genie.Unit.written (by omega) x hs v h
  | .UnitHeaders, x, hs, v, h => Genie.UnitHeaders.written (by omega) x v h
  | .Civ, x, hs, v, h => Genie.Civ.written (by omega) x hs v h

end Genie
