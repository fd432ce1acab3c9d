import Verif.Proof.Records.Fails
/-! # Every class raises the exception of the first item that cannot be written -/

namespace Genie.RecordClass

theorem fails (c : RecordClass) (v : Version) (x : c.Obj) : Fails (c.toBytes v x) (c.checks v x) := by
  cases c with
  | EffectCommand => exact Genie.EffectCommand.fails v x
  | Effect => exact Genie.Effect.fails v x
  | SoundItem => exact Genie.SoundItem.fails v x
  | Sound => exact Genie.Sound.fails v x
  | PlayerColour => exact Genie.PlayerColour.fails v x
  | GraphicDelta => exact Genie.GraphicDelta.fails v x
  | GraphicAngleSound => exact Genie.GraphicAngleSound.fails v x
  | Graphic => exact Genie.Graphic.fails v x
  | TerrainPassGraphic => exact Genie.TerrainPassGraphic.fails v x
  | FrameData => exact Genie.FrameData.fails v x
  | Terrain => exact Genie.Terrain.fails v x
  | TileSize => exact Genie.TileSize.fails v x
  | TerrainBlock => exact Genie.TerrainBlock.fails v x
  | MapUnit => exact Genie.MapUnit.fails v x
  | MapTerrain => exact Genie.MapTerrain.fails v x
  | MapLand => exact Genie.MapLand.fails v x
  | MapElevation => exact Genie.MapElevation.fails v x
  | MapInfo => exact Genie.MapInfo.fails v x
  | RandomMaps => exact Genie.RandomMaps.fails v x
  | ResearchResourceCost => exact Genie.ResearchResourceCost.fails v x
  | ResearchLocation => exact Genie.ResearchLocation.fails v x
  | Tech => exact Genie.Tech.fails v x
  | Common => exact Genie.Common.fails v x
  | TechTreeAge => exact Genie.TechTreeAge.fails v x
  | BuildingConnection => exact Genie.BuildingConnection.fails v x
  | UnitConnection => exact Genie.UnitConnection.fails v x
  | ResearchConnection => exact Genie.ResearchConnection.fails v x
  | TechTree => exact Genie.TechTree.fails v x
  | ResourceStorage => exact Genie.ResourceStorage.fails v x
  | DamageGraphic => exact Genie.DamageGraphic.fails v x
  | DeadFish => exact Genie.DeadFish.fails v x
  | Task => exact Genie.Task.fails v x
  | Bird => exact Genie.Bird.fails v x
  | AttackOrArmor => exact Genie.AttackOrArmor.fails v x
  | Type50 => exact Genie.Type50.fails v x
  | Projectile => exact Genie.Projectile.fails v x
  | ResourceCost => exact Genie.ResourceCost.fails v x
  | TrainLocation => exact Genie.TrainLocation.fails v x
  | Creatable => exact Genie.Creatable.fails v x
  | BuildingAnnex => exact Genie.BuildingAnnex.fails v x
  | Building => exact Genie.Building.fails v x
  | Unit => exact Genie.Unit.fails v x
  | UnitHeaders => exact Genie.UnitHeaders.fails v x
  | Civ => exact Genie.Civ.fails v x
  | TerrainRestriction n => exact Genie.TerrainRestriction.fails v x

end Genie.RecordClass
