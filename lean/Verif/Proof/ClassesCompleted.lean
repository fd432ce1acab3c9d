import Verif.Proof.CompletedClasses
import Verif.Spec.ClassLayout
/-! # `Fills` for every record class -/

namespace Genie.RecordClass

theorem fills (c : RecordClass) : Fills c.fromBytes := by
  cases c with
  | EffectCommand => exact Genie.EffectCommand.fills
  | Effect => exact Genie.Effect.fills
  | SoundItem => exact Genie.SoundItem.fills
  | Sound => exact Genie.Sound.fills
  | PlayerColour => exact Genie.PlayerColour.fills
  | GraphicDelta => exact Genie.GraphicDelta.fills
  | GraphicAngleSound => exact Genie.GraphicAngleSound.fills
  | Graphic => exact Genie.Graphic.fills
  | TerrainPassGraphic => exact Genie.TerrainPassGraphic.fills
  | FrameData => exact Genie.FrameData.fills
  | Terrain => exact Genie.Terrain.fills
  | TileSize => exact Genie.TileSize.fills
  | TerrainBlock => exact Genie.TerrainBlock.fills
  | MapUnit => exact Genie.MapUnit.fills
  | MapTerrain => exact Genie.MapTerrain.fills
  | MapLand => exact Genie.MapLand.fills
  | MapElevation => exact Genie.MapElevation.fills
  | MapInfo => exact Genie.MapInfo.fills
  | RandomMaps => exact Genie.RandomMaps.fills
  | ResearchResourceCost => exact Genie.ResearchResourceCost.fills
  | ResearchLocation => exact Genie.ResearchLocation.fills
  | Tech => exact Genie.Tech.fills
  | Common => exact Genie.Common.fills
  | TechTreeAge => exact Genie.TechTreeAge.fills
  | BuildingConnection => exact Genie.BuildingConnection.fills
  | UnitConnection => exact Genie.UnitConnection.fills
  | ResearchConnection => exact Genie.ResearchConnection.fills
  | TechTree => exact Genie.TechTree.fills
  | ResourceStorage => exact Genie.ResourceStorage.fills
  | DamageGraphic => exact Genie.DamageGraphic.fills
  | DeadFish => exact Genie.DeadFish.fills
  | Task => exact Genie.Task.fills
  | Bird => exact Genie.Bird.fills
  | AttackOrArmor => exact Genie.AttackOrArmor.fills
  | Type50 => exact Genie.Type50.fills
  | Projectile => exact Genie.Projectile.fills
  | ResourceCost => exact Genie.ResourceCost.fills
  | TrainLocation => exact Genie.TrainLocation.fills
  | Creatable => exact Genie.Creatable.fills
  | BuildingAnnex => exact Genie.BuildingAnnex.fills
  | Building => exact Genie.Building.fills
  | Unit => exact Genie.Unit.fills
  | UnitHeaders => exact Genie.UnitHeaders.fills
  | Civ => exact Genie.Civ.fills
  | TerrainRestriction n => exact Genie.TerrainRestriction.fills n

end Genie.RecordClass
