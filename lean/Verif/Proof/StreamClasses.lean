import Verif.Proof.Stream
/-!
# `Decides` for all record classes (generated)
-/

set_option maxRecDepth 4000

namespace Genie

theorem EffectCommand.decides : Decides EffectCommand.fromBytes := by
  unfold EffectCommand.fromBytes; decides

theorem Effect.decides : Decides Effect.fromBytes := by
  have := EffectCommand.decides
  unfold Effect.fromBytes; decides

theorem SoundItem.decides : Decides SoundItem.fromBytes := by
  unfold SoundItem.fromBytes; decides

theorem Sound.decides : Decides Sound.fromBytes := by
  have := SoundItem.decides
  unfold Sound.fromBytes; decides

theorem PlayerColour.decides : Decides PlayerColour.fromBytes := by
  unfold PlayerColour.fromBytes; decides

theorem GraphicDelta.decides : Decides GraphicDelta.fromBytes := by
  unfold GraphicDelta.fromBytes; decides

theorem GraphicAngleSound.decides : Decides GraphicAngleSound.fromBytes := by
  unfold GraphicAngleSound.fromBytes; decides

theorem Graphic.decides : Decides Graphic.fromBytes := by
  have := GraphicDelta.decides
  have := GraphicAngleSound.decides
  unfold Graphic.fromBytes; decides

theorem TerrainPassGraphic.decides : Decides TerrainPassGraphic.fromBytes := by
  unfold TerrainPassGraphic.fromBytes; decides

theorem FrameData.decides : Decides FrameData.fromBytes := by
  unfold FrameData.fromBytes; decides

theorem Terrain.decides : Decides Terrain.fromBytes := by
  have := FrameData.decides
  unfold Terrain.fromBytes; decides

theorem TileSize.decides : Decides TileSize.fromBytes := by
  unfold TileSize.fromBytes; decides

theorem TerrainBlock.decides : Decides TerrainBlock.fromBytes := by
  have := Terrain.decides
  have := TileSize.decides
  unfold TerrainBlock.fromBytes; decides

theorem MapUnit.decides : Decides MapUnit.fromBytes := by
  unfold MapUnit.fromBytes; decides

theorem MapTerrain.decides : Decides MapTerrain.fromBytes := by
  unfold MapTerrain.fromBytes; decides

theorem MapLand.decides : Decides MapLand.fromBytes := by
  unfold MapLand.fromBytes; decides

theorem MapElevation.decides : Decides MapElevation.fromBytes := by
  unfold MapElevation.fromBytes; decides

theorem MapInfo.decides : Decides MapInfo.fromBytes := by
  have := MapUnit.decides
  have := MapTerrain.decides
  have := MapLand.decides
  have := MapElevation.decides
  unfold MapInfo.fromBytes; decides

theorem RandomMaps.decides : Decides RandomMaps.fromBytes := by
  have := MapInfo.decides
  unfold RandomMaps.fromBytes; decides

theorem ResearchResourceCost.decides : Decides ResearchResourceCost.fromBytes := by
  unfold ResearchResourceCost.fromBytes; decides

theorem ResearchLocation.decides : Decides ResearchLocation.fromBytes := by
  unfold ResearchLocation.fromBytes; decides

theorem Tech.decides_fromBytes84 : Decides Tech.fromBytes84 := by
  have := ResearchResourceCost.decides
  have := ResearchLocation.decides
  unfold Tech.fromBytes84; decides

theorem Tech.decides_fromBytes88 : Decides Tech.fromBytes88 := by
  have := ResearchResourceCost.decides
  have := ResearchLocation.decides
  unfold Tech.fromBytes88; decides

theorem Tech.decides : Decides Tech.fromBytes := by
  have := Tech.decides_fromBytes84
  have := Tech.decides_fromBytes88
  unfold Tech.fromBytes; decides

theorem Common.decides : Decides Common.fromBytes := by
  unfold Common.fromBytes; decides

theorem TechTreeAge.decides : Decides TechTreeAge.fromBytes := by
  have := Common.decides
  unfold TechTreeAge.fromBytes; decides

theorem BuildingConnection.decides : Decides BuildingConnection.fromBytes := by
  have := Common.decides
  unfold BuildingConnection.fromBytes; decides

theorem UnitConnection.decides : Decides UnitConnection.fromBytes := by
  have := Common.decides
  unfold UnitConnection.fromBytes; decides

theorem ResearchConnection.decides : Decides ResearchConnection.fromBytes := by
  have := Common.decides
  unfold ResearchConnection.fromBytes; decides

theorem TechTree.decides : Decides TechTree.fromBytes := by
  have := TechTreeAge.decides
  have := BuildingConnection.decides
  have := UnitConnection.decides
  have := ResearchConnection.decides
  unfold TechTree.fromBytes; decides

theorem ResourceStorage.decides : Decides ResourceStorage.fromBytes := by
  unfold ResourceStorage.fromBytes; decides

theorem DamageGraphic.decides : Decides DamageGraphic.fromBytes := by
  unfold DamageGraphic.fromBytes; decides

theorem DeadFish.decides : Decides DeadFish.fromBytes := by
  unfold DeadFish.fromBytes; decides

theorem Task.decides_fromBytes84 : Decides Task.fromBytes84 := by
  unfold Task.fromBytes84; decides

theorem Task.decides_fromBytes88 : Decides Task.fromBytes88 := by
  unfold Task.fromBytes88; decides

theorem Task.decides : Decides Task.fromBytes := by
  have := Task.decides_fromBytes84
  have := Task.decides_fromBytes88
  unfold Task.fromBytes; decides

theorem Bird.decides : Decides Bird.fromBytes := by
  have := Task.decides
  unfold Bird.fromBytes; decides

theorem AttackOrArmor.decides : Decides AttackOrArmor.fromBytes := by
  unfold AttackOrArmor.fromBytes; decides

theorem Type50.decides : Decides Type50.fromBytes := by
  have := AttackOrArmor.decides
  unfold Type50.fromBytes; decides

theorem Projectile.decides : Decides Projectile.fromBytes := by
  unfold Projectile.fromBytes; decides

theorem ResourceCost.decides : Decides ResourceCost.fromBytes := by
  unfold ResourceCost.fromBytes; decides

theorem TrainLocation.decides_fromBytes84 : Decides TrainLocation.fromBytes84 := by
  unfold TrainLocation.fromBytes84; decides

theorem TrainLocation.decides_fromBytes88 : Decides TrainLocation.fromBytes88 := by
  unfold TrainLocation.fromBytes88; decides

theorem TrainLocation.decides : Decides TrainLocation.fromBytes := by
  have := TrainLocation.decides_fromBytes84
  have := TrainLocation.decides_fromBytes88
  unfold TrainLocation.fromBytes; decides

theorem Creatable.decides_fromBytes78 : Decides Creatable.fromBytes78 := by
  have := ResourceCost.decides
  have := TrainLocation.decides
  unfold Creatable.fromBytes78; decides

theorem Creatable.decides_fromBytes84 : Decides Creatable.fromBytes84 := by
  have := ResourceCost.decides
  have := TrainLocation.decides
  unfold Creatable.fromBytes84; decides

theorem Creatable.decides_fromBytes88 : Decides Creatable.fromBytes88 := by
  have := ResourceCost.decides
  have := TrainLocation.decides
  unfold Creatable.fromBytes88; decides

theorem Creatable.decides : Decides Creatable.fromBytes := by
  have := Creatable.decides_fromBytes78
  have := Creatable.decides_fromBytes84
  have := Creatable.decides_fromBytes88
  unfold Creatable.fromBytes; decides

theorem BuildingAnnex.decides : Decides BuildingAnnex.fromBytes := by
  unfold BuildingAnnex.fromBytes; decides

theorem Building.decides : Decides Building.fromBytes := by
  have := BuildingAnnex.decides
  unfold Building.fromBytes; decides

theorem Unit.decides_fromBytes84 : Decides Unit.fromBytes84 := by
  have := ResourceStorage.decides
  have := DamageGraphic.decides
  have := DeadFish.decides
  have := Bird.decides
  have := Type50.decides
  have := Projectile.decides
  have := Creatable.decides
  have := Building.decides
  unfold Unit.fromBytes84; decides

theorem Unit.decides_fromBytes88 : Decides Unit.fromBytes88 := by
  have := ResourceStorage.decides
  have := DamageGraphic.decides
  have := DeadFish.decides
  have := Bird.decides
  have := Type50.decides
  have := Projectile.decides
  have := Creatable.decides
  have := Building.decides
  unfold Unit.fromBytes88; decides

theorem Unit.decides : Decides Unit.fromBytes := by
  have := Unit.decides_fromBytes84
  have := Unit.decides_fromBytes88
  unfold Unit.fromBytes; decides

theorem UnitHeaders.decides : Decides UnitHeaders.fromBytes := by
  have := Task.decides
  unfold UnitHeaders.fromBytes; decides

theorem Civ.decides : Decides Civ.fromBytes := by
  have := Unit.decides
  unfold Civ.fromBytes; decides

theorem TerrainRestriction.decides (n : Int) : Decides (TerrainRestriction.fromBytesWithCount n) := by
  have := TerrainPassGraphic.decides
  unfold TerrainRestriction.fromBytesWithCount; decides

theorem DatFile.decides : Decides DatFile.fromBytes := by
  have := PlayerColour.decides
  have := Sound.decides
  have := Graphic.decides
  have := TerrainBlock.decides
  have := RandomMaps.decides
  have := Effect.decides
  have := UnitHeaders.decides
  have := Civ.decides
  have := Tech.decides
  have := TechTree.decides
  have h1 := fun s => Decides.liftPy (Version.ofStr_ne s)
  have h2 := fun w => Decides.setVersion (w := w)
  have h3 := TerrainRestriction.decides
  unfold DatFile.fromBytes
  refine Decides.bind Decides.string fun _ => Decides.bind (h1 _) fun _ => Decides.bind (h2 _) fun _ => ?_
  refine Decides.bind Decides.int16 fun _ => Decides.bind Decides.int16 fun _ => ?_
  refine Decides.bind Decides.int32Array fun _ => Decides.bind Decides.int32Array fun _ => ?_
  refine Decides.bind (Decides.withParam (h3 _)) fun _ => ?_
  decides

end Genie
