import Verif.Proof.Records.LaxDat
import Verif.Spec.ClassLayout
/-! # Every record class is read as its items -/

namespace Genie.RecordClass

theorem lax (c : RecordClass) (v : Version) :
    Lax v c.fromBytes (fun _ => True) (fun x bs => ReadAsM (c.layout v x) bs) := by
  cases c with
  | EffectCommand => exact Genie.EffectCommand.lax v
  | Effect => exact Genie.Effect.lax v
  | SoundItem => exact Genie.SoundItem.lax v
  | Sound => exact Genie.Sound.lax v
  | PlayerColour => exact Genie.PlayerColour.lax v
  | GraphicDelta => exact Genie.GraphicDelta.lax v
  | GraphicAngleSound => exact Genie.GraphicAngleSound.lax v
  | Graphic => exact Genie.Graphic.lax v
  | TerrainPassGraphic => exact Genie.TerrainPassGraphic.lax v
  | FrameData => exact Genie.FrameData.lax v
  | Terrain => exact Genie.Terrain.lax v
  | TileSize => exact Genie.TileSize.lax v
  | TerrainBlock => exact Genie.TerrainBlock.lax v
  | MapUnit => exact Genie.MapUnit.lax v
  | MapTerrain => exact Genie.MapTerrain.lax v
  | MapLand => exact Genie.MapLand.lax v
  | MapElevation => exact Genie.MapElevation.lax v
  | MapInfo => exact Genie.MapInfo.lax v
  | RandomMaps => exact Genie.RandomMaps.lax v
  | ResearchResourceCost => exact Genie.ResearchResourceCost.lax v
  | ResearchLocation => exact Genie.ResearchLocation.lax v
  | Tech => exact Genie.Tech.lax v
  | Common => exact Genie.Common.lax v
  | TechTreeAge => exact Genie.TechTreeAge.lax v
  | BuildingConnection => exact Genie.BuildingConnection.lax v
  | UnitConnection => exact Genie.UnitConnection.lax v
  | ResearchConnection => exact Genie.ResearchConnection.lax v
  | TechTree => exact Genie.TechTree.lax v
  | ResourceStorage => exact Genie.ResourceStorage.lax v
  | DamageGraphic => exact Genie.DamageGraphic.lax v
  | DeadFish => exact Genie.DeadFish.lax v
  | Task => exact Genie.Task.lax v
  | Bird => exact Genie.Bird.lax v
  | AttackOrArmor => exact Genie.AttackOrArmor.lax v
  | Type50 => exact Genie.Type50.lax v
  | Projectile => exact Genie.Projectile.lax v
  | ResourceCost => exact Genie.ResourceCost.lax v
  | TrainLocation => exact Genie.TrainLocation.lax v
  | Creatable => exact Genie.Creatable.lax v
  | BuildingAnnex => exact Genie.BuildingAnnex.lax v
  | Building => exact Genie.Building.lax v
  | Unit => exact Genie.Unit.lax v
  | UnitHeaders => exact Genie.UnitHeaders.lax v
  | Civ => exact Genie.Civ.lax v
  | TerrainRestriction n => exact Lax.mono (Genie.TerrainRestriction.lax v n) (fun _ _ => trivial) (fun _ _ _ h => h)

end Genie.RecordClass
