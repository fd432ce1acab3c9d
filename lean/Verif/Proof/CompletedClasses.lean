import Verif.Proof.Completed
/-!
# `Fills` for all record classes (generated)
-/

set_option maxRecDepth 4000

namespace Genie

theorem EffectCommand.fills : Fills EffectCommand.fromBytes := by
  unfold EffectCommand.fromBytes; fills

theorem Effect.fills : Fills Effect.fromBytes := by
  have := EffectCommand.fills
  unfold Effect.fromBytes; fills

theorem SoundItem.fills : Fills SoundItem.fromBytes := by
  unfold SoundItem.fromBytes; fills

theorem Sound.fills : Fills Sound.fromBytes := by
  have := SoundItem.fills
  unfold Sound.fromBytes; fills

theorem PlayerColour.fills : Fills PlayerColour.fromBytes := by
  unfold PlayerColour.fromBytes; fills

theorem GraphicDelta.fills : Fills GraphicDelta.fromBytes := by
  unfold GraphicDelta.fromBytes; fills

theorem GraphicAngleSound.fills : Fills GraphicAngleSound.fromBytes := by
  unfold GraphicAngleSound.fromBytes; fills

theorem Graphic.fills : Fills Graphic.fromBytes := by
  have := GraphicDelta.fills
  have := GraphicAngleSound.fills
  unfold Graphic.fromBytes; fills

theorem TerrainPassGraphic.fills : Fills TerrainPassGraphic.fromBytes := by
  unfold TerrainPassGraphic.fromBytes; fills

theorem FrameData.fills : Fills FrameData.fromBytes := by
  unfold FrameData.fromBytes; fills

theorem Terrain.fills : Fills Terrain.fromBytes := by
  have := FrameData.fills
  unfold Terrain.fromBytes; fills

theorem TileSize.fills : Fills TileSize.fromBytes := by
  unfold TileSize.fromBytes; fills

theorem TerrainBlock.fills : Fills TerrainBlock.fromBytes := by
  have := Terrain.fills
  have := TileSize.fills
  unfold TerrainBlock.fromBytes; fills

theorem MapUnit.fills : Fills MapUnit.fromBytes := by
  unfold MapUnit.fromBytes; fills

theorem MapTerrain.fills : Fills MapTerrain.fromBytes := by
  unfold MapTerrain.fromBytes; fills

theorem MapLand.fills : Fills MapLand.fromBytes := by
  unfold MapLand.fromBytes; fills

theorem MapElevation.fills : Fills MapElevation.fromBytes := by
  unfold MapElevation.fromBytes; fills

theorem MapInfo.fills : Fills MapInfo.fromBytes := by
  have := MapUnit.fills
  have := MapTerrain.fills
  have := MapLand.fills
  have := MapElevation.fills
  unfold MapInfo.fromBytes; fills

theorem RandomMaps.fills : Fills RandomMaps.fromBytes := by
  have := MapInfo.fills
  unfold RandomMaps.fromBytes; fills

theorem ResearchResourceCost.fills : Fills ResearchResourceCost.fromBytes := by
  unfold ResearchResourceCost.fromBytes; fills

theorem ResearchLocation.fills : Fills ResearchLocation.fromBytes := by
  unfold ResearchLocation.fromBytes; fills

theorem Tech.fills_fromBytes84 : Fills Tech.fromBytes84 := by
  have := ResearchResourceCost.fills
  have := ResearchLocation.fills
  unfold Tech.fromBytes84; fills

theorem Tech.fills_fromBytes88 : Fills Tech.fromBytes88 := by
  have := ResearchResourceCost.fills
  have := ResearchLocation.fills
  unfold Tech.fromBytes88; fills

theorem Tech.fills : Fills Tech.fromBytes := by
  have := Tech.fills_fromBytes84
  have := Tech.fills_fromBytes88
  unfold Tech.fromBytes; fills

theorem Common.fills : Fills Common.fromBytes := by
  unfold Common.fromBytes; fills

theorem TechTreeAge.fills : Fills TechTreeAge.fromBytes := by
  have := Common.fills
  unfold TechTreeAge.fromBytes; fills

theorem BuildingConnection.fills : Fills BuildingConnection.fromBytes := by
  have := Common.fills
  unfold BuildingConnection.fromBytes; fills

theorem UnitConnection.fills : Fills UnitConnection.fromBytes := by
  have := Common.fills
  unfold UnitConnection.fromBytes; fills

theorem ResearchConnection.fills : Fills ResearchConnection.fromBytes := by
  have := Common.fills
  unfold ResearchConnection.fromBytes; fills

theorem TechTree.fills : Fills TechTree.fromBytes := by
  have := TechTreeAge.fills
  have := BuildingConnection.fills
  have := UnitConnection.fills
  have := ResearchConnection.fills
  unfold TechTree.fromBytes; fills

theorem ResourceStorage.fills : Fills ResourceStorage.fromBytes := by
  unfold ResourceStorage.fromBytes; fills

theorem DamageGraphic.fills : Fills DamageGraphic.fromBytes := by
  unfold DamageGraphic.fromBytes; fills

theorem DeadFish.fills : Fills DeadFish.fromBytes := by
  unfold DeadFish.fromBytes; fills

theorem Task.fills_fromBytes84 : Fills Task.fromBytes84 := by
  unfold Task.fromBytes84; fills

theorem Task.fills_fromBytes88 : Fills Task.fromBytes88 := by
  unfold Task.fromBytes88; fills

theorem Task.fills : Fills Task.fromBytes := by
  have := Task.fills_fromBytes84
  have := Task.fills_fromBytes88
  unfold Task.fromBytes; fills

theorem Bird.fills : Fills Bird.fromBytes := by
  have := Task.fills
  unfold Bird.fromBytes; fills

theorem AttackOrArmor.fills : Fills AttackOrArmor.fromBytes := by
  unfold AttackOrArmor.fromBytes; fills

theorem Type50.fills : Fills Type50.fromBytes := by
  have := AttackOrArmor.fills
  unfold Type50.fromBytes; fills

theorem Projectile.fills : Fills Projectile.fromBytes := by
  unfold Projectile.fromBytes; fills

theorem ResourceCost.fills : Fills ResourceCost.fromBytes := by
  unfold ResourceCost.fromBytes; fills

theorem TrainLocation.fills_fromBytes84 : Fills TrainLocation.fromBytes84 := by
  unfold TrainLocation.fromBytes84; fills

theorem TrainLocation.fills_fromBytes88 : Fills TrainLocation.fromBytes88 := by
  unfold TrainLocation.fromBytes88; fills

theorem TrainLocation.fills : Fills TrainLocation.fromBytes := by
  have := TrainLocation.fills_fromBytes84
  have := TrainLocation.fills_fromBytes88
  unfold TrainLocation.fromBytes; fills

theorem Creatable.fills_fromBytes78 : Fills Creatable.fromBytes78 := by
  have := ResourceCost.fills
  have := TrainLocation.fills
  unfold Creatable.fromBytes78; fills

theorem Creatable.fills_fromBytes84 : Fills Creatable.fromBytes84 := by
  have := ResourceCost.fills
  have := TrainLocation.fills
  unfold Creatable.fromBytes84; fills

theorem Creatable.fills_fromBytes88 : Fills Creatable.fromBytes88 := by
  have := ResourceCost.fills
  have := TrainLocation.fills
  unfold Creatable.fromBytes88; fills

theorem Creatable.fills : Fills Creatable.fromBytes := by
  have := Creatable.fills_fromBytes78
  have := Creatable.fills_fromBytes84
  have := Creatable.fills_fromBytes88
  unfold Creatable.fromBytes; fills

theorem BuildingAnnex.fills : Fills BuildingAnnex.fromBytes := by
  unfold BuildingAnnex.fromBytes; fills

theorem Building.fills : Fills Building.fromBytes := by
  have := BuildingAnnex.fills
  unfold Building.fromBytes; fills

theorem Unit.fills_fromBytes84 : Fills Unit.fromBytes84 := by
  have := ResourceStorage.fills
  have := DamageGraphic.fills
  have := DeadFish.fills
  have := Bird.fills
  have := Type50.fills
  have := Projectile.fills
  have := Creatable.fills
  have := Building.fills
  unfold Unit.fromBytes84; fills

theorem Unit.fills_fromBytes88 : Fills Unit.fromBytes88 := by
  have := ResourceStorage.fills
  have := DamageGraphic.fills
  have := DeadFish.fills
  have := Bird.fills
  have := Type50.fills
  have := Projectile.fills
  have := Creatable.fills
  have := Building.fills
  unfold Unit.fromBytes88; fills

theorem Unit.fills : Fills Unit.fromBytes := by
  have := Unit.fills_fromBytes84
  have := Unit.fills_fromBytes88
  unfold Unit.fromBytes; fills

theorem UnitHeaders.fills : Fills UnitHeaders.fromBytes := by
  have := Task.fills
  unfold UnitHeaders.fromBytes; fills

theorem Civ.fills : Fills Civ.fromBytes := by
  have := Unit.fills
  unfold Civ.fromBytes; fills

theorem TerrainRestriction.fills (n : Int) : Fills (TerrainRestriction.fromBytesWithCount n) := by
  have := TerrainPassGraphic.fills
  unfold TerrainRestriction.fromBytesWithCount; fills

theorem DatFile.fills : Fills DatFile.fromBytes := by
  have := PlayerColour.fills
  have := Sound.fills
  have := Graphic.fills
  have := TerrainBlock.fills
  have := RandomMaps.fills
  have := Effect.fills
  have := UnitHeaders.fills
  have := Civ.fills
  have := Tech.fills
  have := TechTree.fills
  have h1 := fun s => Fills.liftPy (x := Version.ofStr s)
  have h2 := fun w => Fills.setVersion (w := w)
  have h3 := TerrainRestriction.fills
  unfold DatFile.fromBytes
  refine Fills.bind Fills.string fun _ => Fills.bind (h1 _) fun _ => Fills.bind (h2 _) fun _ => ?_
  refine Fills.bind Fills.int16 fun _ => Fills.bind Fills.int16 fun _ => ?_
  refine Fills.bind Fills.int32Array fun _ => Fills.bind Fills.int32Array fun _ => ?_
  refine Fills.bind (Fills.withParam (h3 _)) fun _ => ?_
  fills

end Genie
