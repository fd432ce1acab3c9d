import Verif.Proof.Optimized
import Verif.Proof.Header
/-!
# `OMode` for all record classes (generated)
-/

set_option maxRecDepth 4000

namespace Genie

theorem EffectCommand.omode : OMode EffectCommand.fromBytes EffectCommand.fromBytes := by
  unfold EffectCommand.fromBytes; omode

theorem Effect.omode : OMode Effect.fromBytes Effect.fromBytesO := by
  have := EffectCommand.omode
  unfold Effect.fromBytes Effect.fromBytesO; omode

theorem SoundItem.omode : OMode SoundItem.fromBytes SoundItem.fromBytesO := by
  unfold SoundItem.fromBytes SoundItem.fromBytesO; omode

theorem Sound.omode : OMode Sound.fromBytes Sound.fromBytesO := by
  have := SoundItem.omode
  unfold Sound.fromBytes Sound.fromBytesO; omode

theorem PlayerColour.omode : OMode PlayerColour.fromBytes PlayerColour.fromBytes := by
  unfold PlayerColour.fromBytes; omode

theorem GraphicDelta.omode : OMode GraphicDelta.fromBytes GraphicDelta.fromBytes := by
  unfold GraphicDelta.fromBytes; omode

theorem GraphicAngleSound.omode : OMode GraphicAngleSound.fromBytes GraphicAngleSound.fromBytes := by
  unfold GraphicAngleSound.fromBytes; omode

theorem Graphic.omode : OMode Graphic.fromBytes Graphic.fromBytesO := by
  have := GraphicDelta.omode
  have := GraphicAngleSound.omode
  unfold Graphic.fromBytes Graphic.fromBytesO; omode

theorem TerrainPassGraphic.omode : OMode TerrainPassGraphic.fromBytes TerrainPassGraphic.fromBytes := by
  unfold TerrainPassGraphic.fromBytes; omode

theorem FrameData.omode : OMode FrameData.fromBytes FrameData.fromBytes := by
  unfold FrameData.fromBytes; omode

theorem Terrain.omode : OMode Terrain.fromBytes Terrain.fromBytesO := by
  have := FrameData.omode
  unfold Terrain.fromBytes Terrain.fromBytesO; omode

theorem TileSize.omode : OMode TileSize.fromBytes TileSize.fromBytes := by
  unfold TileSize.fromBytes; omode

theorem TerrainBlock.omode : OMode TerrainBlock.fromBytes TerrainBlock.fromBytesO := by
  have := Terrain.omode
  have := TileSize.omode
  unfold TerrainBlock.fromBytes TerrainBlock.fromBytesO; omode

theorem MapUnit.omode : OMode MapUnit.fromBytes MapUnit.fromBytes := by
  unfold MapUnit.fromBytes; omode

theorem MapTerrain.omode : OMode MapTerrain.fromBytes MapTerrain.fromBytes := by
  unfold MapTerrain.fromBytes; omode

theorem MapLand.omode : OMode MapLand.fromBytes MapLand.fromBytes := by
  unfold MapLand.fromBytes; omode

theorem MapElevation.omode : OMode MapElevation.fromBytes MapElevation.fromBytes := by
  unfold MapElevation.fromBytes; omode

theorem MapInfo.omode : OMode MapInfo.fromBytes MapInfo.fromBytes := by
  have := MapUnit.omode
  have := MapTerrain.omode
  have := MapLand.omode
  have := MapElevation.omode
  unfold MapInfo.fromBytes; omode

theorem RandomMaps.omode : OMode RandomMaps.fromBytes RandomMaps.fromBytes := by
  have := MapInfo.omode
  unfold RandomMaps.fromBytes; omode

theorem ResearchResourceCost.omode : OMode ResearchResourceCost.fromBytes ResearchResourceCost.fromBytes := by
  unfold ResearchResourceCost.fromBytes; omode

theorem ResearchLocation.omode : OMode ResearchLocation.fromBytes ResearchLocation.fromBytes := by
  unfold ResearchLocation.fromBytes; omode

theorem Tech.omode_fromBytes84 : OMode Tech.fromBytes84 Tech.fromBytes84O := by
  have := ResearchResourceCost.omode
  have := ResearchLocation.omode
  unfold Tech.fromBytes84 Tech.fromBytes84O; omode

theorem Tech.omode_fromBytes88 : OMode Tech.fromBytes88 Tech.fromBytes88O := by
  have := ResearchResourceCost.omode
  have := ResearchLocation.omode
  unfold Tech.fromBytes88 Tech.fromBytes88O; omode

theorem Tech.omode : OMode Tech.fromBytes Tech.fromBytesO := by
  have := Tech.omode_fromBytes84
  have := Tech.omode_fromBytes88
  unfold Tech.fromBytes Tech.fromBytesO; omode

theorem Common.omode : OMode Common.fromBytes Common.fromBytes := by
  unfold Common.fromBytes; omode

theorem TechTreeAge.omode : OMode TechTreeAge.fromBytes TechTreeAge.fromBytes := by
  have := Common.omode
  unfold TechTreeAge.fromBytes; omode

theorem BuildingConnection.omode : OMode BuildingConnection.fromBytes BuildingConnection.fromBytes := by
  have := Common.omode
  unfold BuildingConnection.fromBytes; omode

theorem UnitConnection.omode : OMode UnitConnection.fromBytes UnitConnection.fromBytes := by
  have := Common.omode
  unfold UnitConnection.fromBytes; omode

theorem ResearchConnection.omode : OMode ResearchConnection.fromBytes ResearchConnection.fromBytes := by
  have := Common.omode
  unfold ResearchConnection.fromBytes; omode

theorem TechTree.omode : OMode TechTree.fromBytes TechTree.fromBytes := by
  have := TechTreeAge.omode
  have := BuildingConnection.omode
  have := UnitConnection.omode
  have := ResearchConnection.omode
  unfold TechTree.fromBytes; omode

theorem ResourceStorage.omode : OMode ResourceStorage.fromBytes ResourceStorage.fromBytes := by
  unfold ResourceStorage.fromBytes; omode

theorem DamageGraphic.omode : OMode DamageGraphic.fromBytes DamageGraphic.fromBytes := by
  unfold DamageGraphic.fromBytes; omode

theorem DeadFish.omode : OMode DeadFish.fromBytes DeadFish.fromBytes := by
  unfold DeadFish.fromBytes; omode

theorem Task.omode_fromBytes84 : OMode Task.fromBytes84 Task.fromBytes84 := by
  unfold Task.fromBytes84; omode

theorem Task.omode_fromBytes88 : OMode Task.fromBytes88 Task.fromBytes88 := by
  unfold Task.fromBytes88; omode

theorem Task.omode : OMode Task.fromBytes Task.fromBytes := by
  have := Task.omode_fromBytes84
  have := Task.omode_fromBytes88
  unfold Task.fromBytes; omode

theorem Bird.omode : OMode Bird.fromBytes Bird.fromBytes := by
  have := Task.omode
  unfold Bird.fromBytes; omode

theorem AttackOrArmor.omode : OMode AttackOrArmor.fromBytes AttackOrArmor.fromBytes := by
  unfold AttackOrArmor.fromBytes; omode

theorem Type50.omode : OMode Type50.fromBytes Type50.fromBytes := by
  have := AttackOrArmor.omode
  unfold Type50.fromBytes; omode

theorem Projectile.omode : OMode Projectile.fromBytes Projectile.fromBytes := by
  unfold Projectile.fromBytes; omode

theorem ResourceCost.omode : OMode ResourceCost.fromBytes ResourceCost.fromBytes := by
  unfold ResourceCost.fromBytes; omode

theorem TrainLocation.omode_fromBytes84 : OMode TrainLocation.fromBytes84 TrainLocation.fromBytes84 := by
  unfold TrainLocation.fromBytes84; omode

theorem TrainLocation.omode_fromBytes88 : OMode TrainLocation.fromBytes88 TrainLocation.fromBytes88 := by
  unfold TrainLocation.fromBytes88; omode

theorem TrainLocation.omode : OMode TrainLocation.fromBytes TrainLocation.fromBytes := by
  have := TrainLocation.omode_fromBytes84
  have := TrainLocation.omode_fromBytes88
  unfold TrainLocation.fromBytes; omode

theorem Creatable.omode_fromBytes78 : OMode Creatable.fromBytes78 Creatable.fromBytes78 := by
  have := ResourceCost.omode
  have := TrainLocation.omode
  unfold Creatable.fromBytes78; omode

theorem Creatable.omode_fromBytes84 : OMode Creatable.fromBytes84 Creatable.fromBytes84 := by
  have := ResourceCost.omode
  have := TrainLocation.omode
  unfold Creatable.fromBytes84; omode

theorem Creatable.omode_fromBytes88 : OMode Creatable.fromBytes88 Creatable.fromBytes88 := by
  have := ResourceCost.omode
  have := TrainLocation.omode
  unfold Creatable.fromBytes88; omode

theorem Creatable.omode : OMode Creatable.fromBytes Creatable.fromBytes := by
  have := Creatable.omode_fromBytes78
  have := Creatable.omode_fromBytes84
  have := Creatable.omode_fromBytes88
  unfold Creatable.fromBytes; omode

theorem BuildingAnnex.omode : OMode BuildingAnnex.fromBytes BuildingAnnex.fromBytes := by
  unfold BuildingAnnex.fromBytes; omode

theorem Building.omode : OMode Building.fromBytes Building.fromBytes := by
  have := BuildingAnnex.omode
  unfold Building.fromBytes; omode

theorem Unit.omode_fromBytes84 : OMode Unit.fromBytes84 Unit.fromBytes84O := by
  have := ResourceStorage.omode
  have := DamageGraphic.omode
  have := DeadFish.omode
  have := Bird.omode
  have := Type50.omode
  have := Projectile.omode
  have := Creatable.omode
  have := Building.omode
  unfold Unit.fromBytes84 Unit.fromBytes84O; omode

theorem Unit.omode_fromBytes88 : OMode Unit.fromBytes88 Unit.fromBytes88O := by
  have := ResourceStorage.omode
  have := DamageGraphic.omode
  have := DeadFish.omode
  have := Bird.omode
  have := Type50.omode
  have := Projectile.omode
  have := Creatable.omode
  have := Building.omode
  unfold Unit.fromBytes88 Unit.fromBytes88O; omode

theorem Unit.omode : OMode Unit.fromBytes Unit.fromBytesO := by
  have := Unit.omode_fromBytes84
  have := Unit.omode_fromBytes88
  unfold Unit.fromBytes Unit.fromBytesO; omode

theorem UnitHeaders.omode : OMode UnitHeaders.fromBytes UnitHeaders.fromBytes := by
  have := Task.omode
  unfold UnitHeaders.fromBytes; omode

theorem Civ.omode : OMode Civ.fromBytes Civ.fromBytesO := by
  have := Unit.omode
  unfold Civ.fromBytes Civ.fromBytesO; omode

theorem TerrainRestriction.omode (n : Int) : OMode (TerrainRestriction.fromBytesWithCount n) (TerrainRestriction.fromBytesWithCount n) := by
  have := TerrainPassGraphic.omode
  unfold TerrainRestriction.fromBytesWithCount; omode

theorem DatFile.omode : OMode DatFile.fromBytes DatFile.fromBytesO := by
  have := PlayerColour.omode
  have := Sound.omode
  have := Graphic.omode
  have := TerrainBlock.omode
  have := RandomMaps.omode
  have := Effect.omode
  have := UnitHeaders.omode
  have := Civ.omode
  have := Tech.omode
  have := TechTree.omode
  have h1 := fun s => OMode.liftPy (x := Version.ofStr s) (by intro h; cases ofStr_error h)
  have h2 := fun w => OMode.setVersion (w := w)
  have h3 := TerrainRestriction.omode
  unfold DatFile.fromBytes DatFile.fromBytesO
  refine OMode.bind OMode.string fun _ => OMode.bind (h1 _) fun _ => OMode.bind (h2 _) fun _ => ?_
  refine OMode.bind OMode.int16 fun _ => OMode.bind OMode.int16 fun _ => ?_
  refine OMode.bind OMode.int32Array fun _ => OMode.bind OMode.int32Array fun _ => ?_
  refine OMode.bind (OMode.withParam (h3 _)) fun _ => ?_
  omode

end Genie
