import Verif.Proof.Records.TakesDat
import Verif.Spec.ClassLayout
/-! # Every record class reads whatever is accepted for its items -/

namespace Genie.RecordClass

theorem takes (c : RecordClass) {v : Version} {x : c.Obj} (h : c.WF v x) : Takes v c.fromBytes (c.layout v x) x := by
  cases c with
  | EffectCommand => exact Genie.EffectCommand.takes h
  | Effect => exact Genie.Effect.takes h
  | SoundItem => exact Genie.SoundItem.takes h
  | Sound => exact Genie.Sound.takes h
  | PlayerColour => exact Genie.PlayerColour.takes h
  | GraphicDelta => exact Genie.GraphicDelta.takes h
  | GraphicAngleSound => exact Genie.GraphicAngleSound.takes h
  | Graphic => exact Genie.Graphic.takes h
  | TerrainPassGraphic => exact Genie.TerrainPassGraphic.takes h
  | FrameData => exact Genie.FrameData.takes h
  | Terrain => exact Genie.Terrain.takes h
  | TileSize => exact Genie.TileSize.takes h
  | TerrainBlock => exact Genie.TerrainBlock.takes h
  | MapUnit => exact Genie.MapUnit.takes h
  | MapTerrain => exact Genie.MapTerrain.takes h
  | MapLand => exact Genie.MapLand.takes h
  | MapElevation => exact Genie.MapElevation.takes h
  | MapInfo => exact Genie.MapInfo.takes h
  | RandomMaps => exact Genie.RandomMaps.takes h
  | ResearchResourceCost => exact Genie.ResearchResourceCost.takes h
  | ResearchLocation => exact Genie.ResearchLocation.takes h
  | Tech => exact Genie.Tech.takes h
  | Common => exact Genie.Common.takes h
  | TechTreeAge => exact Genie.TechTreeAge.takes h
  | BuildingConnection => exact Genie.BuildingConnection.takes h
  | UnitConnection => exact Genie.UnitConnection.takes h
  | ResearchConnection => exact Genie.ResearchConnection.takes h
  | TechTree => exact Genie.TechTree.takes h
  | ResourceStorage => exact Genie.ResourceStorage.takes h
  | DamageGraphic => exact Genie.DamageGraphic.takes h
  | DeadFish => exact Genie.DeadFish.takes h
  | Task => exact Genie.Task.takes h
  | Bird => exact Genie.Bird.takes h
  | AttackOrArmor => exact Genie.AttackOrArmor.takes h
  | Type50 => exact Genie.Type50.takes h
  | Projectile => exact Genie.Projectile.takes h
  | ResourceCost => exact Genie.ResourceCost.takes h
  | TrainLocation => exact Genie.TrainLocation.takes h
  | Creatable => exact Genie.Creatable.takes h
  | BuildingAnnex => exact Genie.BuildingAnnex.takes h
  | Building => exact Genie.Building.takes h
  | Unit => exact Genie.Unit.takes h
  | UnitHeaders => exact Genie.UnitHeaders.takes h
  | Civ => exact Genie.Civ.takes h
  | TerrainRestriction n => exact Genie.TerrainRestriction.takes h

end Genie.RecordClass
