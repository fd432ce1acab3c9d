import Verif.Spec.Classes
import Verif.Proof.Records.DatFile
/-! # The class lemmas, for the whole table (generated by `tools/gen_classes.py`) -/

namespace Genie.RecordClass

theorem rw (c : RecordClass) {v : Version} {x : c.Obj} (h : c.WF v x) :
    RW v c.fromBytes (c.toBytes v x) x := by
  cases c with
  | EffectCommand => exact Genie.EffectCommand.rw h
  | Effect => exact Genie.Effect.rw h
  | SoundItem => exact Genie.SoundItem.rw h
  | Sound => exact Genie.Sound.rw h
  | PlayerColour => exact Genie.PlayerColour.rw h
  | GraphicDelta => exact Genie.GraphicDelta.rw h
  | GraphicAngleSound => exact Genie.GraphicAngleSound.rw h
  | Graphic => exact Genie.Graphic.rw h
  | TerrainPassGraphic => exact Genie.TerrainPassGraphic.rw h
  | FrameData => exact Genie.FrameData.rw h
  | Terrain => exact Genie.Terrain.rw h
  | TileSize => exact Genie.TileSize.rw h
  | TerrainBlock => exact Genie.TerrainBlock.rw h
  | MapUnit => exact Genie.MapUnit.rw h
  | MapTerrain => exact Genie.MapTerrain.rw h
  | MapLand => exact Genie.MapLand.rw h
  | MapElevation => exact Genie.MapElevation.rw h
  | MapInfo => exact Genie.MapInfo.rw h
  | RandomMaps => exact Genie.RandomMaps.rw h
  | ResearchResourceCost => exact Genie.ResearchResourceCost.rw h
  | ResearchLocation => exact Genie.ResearchLocation.rw h
  | Tech => exact Genie.Tech.rw h
  | Common => exact Genie.Common.rw h
  | TechTreeAge => exact Genie.TechTreeAge.rw h
  | BuildingConnection => exact Genie.BuildingConnection.rw h
  | UnitConnection => exact Genie.UnitConnection.rw h
  | ResearchConnection => exact Genie.ResearchConnection.rw h
  | TechTree => exact Genie.TechTree.rw h
  | ResourceStorage => exact Genie.ResourceStorage.rw h
  | DamageGraphic => exact Genie.DamageGraphic.rw h
  | DeadFish => exact Genie.DeadFish.rw h
  | Task => exact Genie.Task.rw h
  | Bird => exact Genie.Bird.rw h
  | AttackOrArmor => exact Genie.AttackOrArmor.rw h
  | Type50 => exact Genie.Type50.rw h
  | Projectile => exact Genie.Projectile.rw h
  | ResourceCost => exact Genie.ResourceCost.rw h
  | TrainLocation => exact Genie.TrainLocation.rw h
  | Creatable => exact Genie.Creatable.rw h
  | BuildingAnnex => exact Genie.BuildingAnnex.rw h
  | Building => exact Genie.Building.rw h
  | Unit => exact Genie.Unit.rw h
  | UnitHeaders => exact Genie.UnitHeaders.rw h
  | Civ => exact Genie.Civ.rw h
  | TerrainRestriction n => exact Genie.TerrainRestriction.rw h

theorem good (c : RecordClass) (v : Version) :
    Good v c.fromBytes (c.WF v) (fun x bs => c.toBytes v x = .ok bs) := by
  cases c with
  | EffectCommand => exact Genie.EffectCommand.good v
  | Effect => exact Genie.Effect.good v
  | SoundItem => exact Genie.SoundItem.good v
  | Sound => exact Genie.Sound.good v
  | PlayerColour => exact Genie.PlayerColour.good v
  | GraphicDelta => exact Genie.GraphicDelta.good v
  | GraphicAngleSound => exact Genie.GraphicAngleSound.good v
  | Graphic => exact Genie.Graphic.good v
  | TerrainPassGraphic => exact Genie.TerrainPassGraphic.good v
  | FrameData => exact Genie.FrameData.good v
  | Terrain => exact Genie.Terrain.good v
  | TileSize => exact Genie.TileSize.good v
  | TerrainBlock => exact Genie.TerrainBlock.good v
  | MapUnit => exact Genie.MapUnit.good v
  | MapTerrain => exact Genie.MapTerrain.good v
  | MapLand => exact Genie.MapLand.good v
  | MapElevation => exact Genie.MapElevation.good v
  | MapInfo => exact Genie.MapInfo.good v
  | RandomMaps => exact Genie.RandomMaps.good v
  | ResearchResourceCost => exact Genie.ResearchResourceCost.good v
  | ResearchLocation => exact Genie.ResearchLocation.good v
  | Tech => exact Genie.Tech.good v
  | Common => exact Genie.Common.good v
  | TechTreeAge => exact Genie.TechTreeAge.good v
  | BuildingConnection => exact Genie.BuildingConnection.good v
  | UnitConnection => exact Genie.UnitConnection.good v
  | ResearchConnection => exact Genie.ResearchConnection.good v
  | TechTree => exact Genie.TechTree.good v
  | ResourceStorage => exact Genie.ResourceStorage.good v
  | DamageGraphic => exact Genie.DamageGraphic.good v
  | DeadFish => exact Genie.DeadFish.good v
  | Task => exact Genie.Task.good v
  | Bird => exact Genie.Bird.good v
  | AttackOrArmor => exact Genie.AttackOrArmor.good v
  | Type50 => exact Genie.Type50.good v
  | Projectile => exact Genie.Projectile.good v
  | ResourceCost => exact Genie.ResourceCost.good v
  | TrainLocation => exact Genie.TrainLocation.good v
  | Creatable => exact Genie.Creatable.good v
  | BuildingAnnex => exact Genie.BuildingAnnex.good v
  | Building => exact Genie.Building.good v
  | Unit => exact Genie.Unit.good v
  | UnitHeaders => exact Genie.UnitHeaders.good v
  | Civ => exact Genie.Civ.good v
  | TerrainRestriction n =>
    exact Good.mono (Genie.TerrainRestriction.good v n) (fun _ h => h) (fun _ _ _ h => h.2)

end Genie.RecordClass
