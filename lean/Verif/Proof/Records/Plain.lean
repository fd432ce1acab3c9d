import Verif.Proof.Causes
/-! # Classes whose records cause only the exceptions of single values (generated by `tools/gen_causes.py`) -/

namespace Genie

theorem EffectCommand.plain (v : Version) (x : EffectCommand) : Plain (x.layout v) := by
  unfold EffectCommand.layout; plain
instance : PlainLayout EffectCommand.layout := ⟨EffectCommand.plain⟩

theorem Effect.plain (v : Version) (x : Effect) : Plain (x.layout v) := by
  unfold Effect.layout; plain
instance : PlainLayout Effect.layout := ⟨Effect.plain⟩

theorem SoundItem.plain (v : Version) (x : SoundItem) : Plain (x.layout v) := by
  unfold SoundItem.layout; plain
instance : PlainLayout SoundItem.layout := ⟨SoundItem.plain⟩

theorem Sound.plain (v : Version) (x : Sound) : Plain (x.layout v) := by
  unfold Sound.layout; plain
instance : PlainLayout Sound.layout := ⟨Sound.plain⟩

theorem PlayerColour.plain (v : Version) (x : PlayerColour) : Plain (x.layout v) := by
  unfold PlayerColour.layout; plain
instance : PlainLayout PlayerColour.layout := ⟨PlayerColour.plain⟩

theorem GraphicDelta.plain (v : Version) (x : GraphicDelta) : Plain (x.layout v) := by
  unfold GraphicDelta.layout; plain
instance : PlainLayout GraphicDelta.layout := ⟨GraphicDelta.plain⟩

theorem GraphicAngleSound.plain (v : Version) (x : GraphicAngleSound) : Plain (x.layout v) := by
  unfold GraphicAngleSound.layout; plain
instance : PlainLayout GraphicAngleSound.layout := ⟨GraphicAngleSound.plain⟩

theorem Graphic.plain (v : Version) (x : Graphic) : Plain (x.layout v) := by
  unfold Graphic.layout; plain
instance : PlainLayout Graphic.layout := ⟨Graphic.plain⟩

theorem TerrainPassGraphic.plain (v : Version) (x : TerrainPassGraphic) : Plain (x.layout v) := by
  unfold TerrainPassGraphic.layout; plain
instance : PlainLayout TerrainPassGraphic.layout := ⟨TerrainPassGraphic.plain⟩

theorem FrameData.plain (v : Version) (x : FrameData) : Plain (x.layout v) := by
  unfold FrameData.layout; plain
instance : PlainLayout FrameData.layout := ⟨FrameData.plain⟩

theorem Terrain.plain (v : Version) (x : Terrain) : Plain (x.layout v) := by
  unfold Terrain.layout; plain
instance : PlainLayout Terrain.layout := ⟨Terrain.plain⟩

theorem TileSize.plain (v : Version) (x : TileSize) : Plain (x.layout v) := by
  unfold TileSize.layout; plain
instance : PlainLayout TileSize.layout := ⟨TileSize.plain⟩

theorem TerrainBlock.plain (v : Version) (x : TerrainBlock) : Plain (x.layout v) := by
  unfold TerrainBlock.layout; plain
instance : PlainLayout TerrainBlock.layout := ⟨TerrainBlock.plain⟩

theorem MapUnit.plain (v : Version) (x : MapUnit) : Plain (x.layout v) := by
  unfold MapUnit.layout; plain
instance : PlainLayout MapUnit.layout := ⟨MapUnit.plain⟩

theorem MapTerrain.plain (v : Version) (x : MapTerrain) : Plain (x.layout v) := by
  unfold MapTerrain.layout; plain
instance : PlainLayout MapTerrain.layout := ⟨MapTerrain.plain⟩

theorem MapLand.plain (v : Version) (x : MapLand) : Plain (x.layout v) := by
  unfold MapLand.layout; plain
instance : PlainLayout MapLand.layout := ⟨MapLand.plain⟩

theorem MapElevation.plain (v : Version) (x : MapElevation) : Plain (x.layout v) := by
  unfold MapElevation.layout; plain
instance : PlainLayout MapElevation.layout := ⟨MapElevation.plain⟩

theorem MapInfo.plain (v : Version) (x : MapInfo) : Plain (x.layout v) := by
  unfold MapInfo.layout; plain
instance : PlainLayout MapInfo.layout := ⟨MapInfo.plain⟩

theorem ResearchResourceCost.plain (v : Version) (x : ResearchResourceCost) : Plain (x.layout v) := by
  unfold ResearchResourceCost.layout; plain
instance : PlainLayout ResearchResourceCost.layout := ⟨ResearchResourceCost.plain⟩

theorem ResearchLocation.plain (v : Version) (x : ResearchLocation) : Plain (x.layout v) := by
  unfold ResearchLocation.layout; plain
instance : PlainLayout ResearchLocation.layout := ⟨ResearchLocation.plain⟩

theorem Tech.plain (v : Version) (x : Tech) : Plain (x.layout v) := by
  unfold Tech.layout; plain
instance : PlainLayout Tech.layout := ⟨Tech.plain⟩

theorem Common.plain (v : Version) (x : Common) : Plain (x.layout v) := by
  unfold Common.layout; plain
instance : PlainLayout Common.layout := ⟨Common.plain⟩

theorem TechTreeAge.plain (v : Version) (x : TechTreeAge) : Plain (x.layout v) := by
  unfold TechTreeAge.layout; plain
instance : PlainLayout TechTreeAge.layout := ⟨TechTreeAge.plain⟩

theorem BuildingConnection.plain (v : Version) (x : BuildingConnection) : Plain (x.layout v) := by
  unfold BuildingConnection.layout; plain
instance : PlainLayout BuildingConnection.layout := ⟨BuildingConnection.plain⟩

theorem UnitConnection.plain (v : Version) (x : UnitConnection) : Plain (x.layout v) := by
  unfold UnitConnection.layout; plain
instance : PlainLayout UnitConnection.layout := ⟨UnitConnection.plain⟩

theorem ResearchConnection.plain (v : Version) (x : ResearchConnection) : Plain (x.layout v) := by
  unfold ResearchConnection.layout; plain
instance : PlainLayout ResearchConnection.layout := ⟨ResearchConnection.plain⟩

theorem TechTree.plain (v : Version) (x : TechTree) : Plain (x.layout v) := by
  unfold TechTree.layout; plain
instance : PlainLayout TechTree.layout := ⟨TechTree.plain⟩

theorem Task.plain (v : Version) (x : Task) : Plain (x.layout v) := by
  unfold Task.layout; plain
instance : PlainLayout Task.layout := ⟨Task.plain⟩

theorem UnitHeaders.plain (v : Version) (x : UnitHeaders) : Plain (x.layout v) := by
  unfold UnitHeaders.layout
  exact Plain.append (Plain.u8 _) (Plain.part (fun _ => Plain.append (Plain.countI16 _) (Plain.classesI _)) _)
instance : PlainLayout UnitHeaders.layout := ⟨UnitHeaders.plain⟩

theorem ResourceStorage.plain (v : Version) (x : ResourceStorage) : Plain (x.layout v) := by
  unfold ResourceStorage.layout; plain
instance : PlainLayout ResourceStorage.layout := ⟨ResourceStorage.plain⟩

theorem DamageGraphic.plain (v : Version) (x : DamageGraphic) : Plain (x.layout v) := by
  unfold DamageGraphic.layout; plain
instance : PlainLayout DamageGraphic.layout := ⟨DamageGraphic.plain⟩

theorem DeadFish.plain (v : Version) (x : DeadFish) : Plain (x.layout v) := by
  unfold DeadFish.layout; plain
instance : PlainLayout DeadFish.layout := ⟨DeadFish.plain⟩

theorem Bird.plain (v : Version) (x : Bird) : Plain (x.layout v) := by
  unfold Bird.layout; plain
instance : PlainLayout Bird.layout := ⟨Bird.plain⟩

theorem AttackOrArmor.plain (v : Version) (x : AttackOrArmor) : Plain (x.layout v) := by
  unfold AttackOrArmor.layout; plain
instance : PlainLayout AttackOrArmor.layout := ⟨AttackOrArmor.plain⟩

theorem Type50.plain (v : Version) (x : Type50) : Plain (x.layout v) := by
  unfold Type50.layout; plain
instance : PlainLayout Type50.layout := ⟨Type50.plain⟩

theorem Projectile.plain (v : Version) (x : Projectile) : Plain (x.layout v) := by
  unfold Projectile.layout; plain
instance : PlainLayout Projectile.layout := ⟨Projectile.plain⟩

theorem ResourceCost.plain (v : Version) (x : ResourceCost) : Plain (x.layout v) := by
  unfold ResourceCost.layout; plain
instance : PlainLayout ResourceCost.layout := ⟨ResourceCost.plain⟩

theorem TrainLocation.plain (v : Version) (x : TrainLocation) : Plain (x.layout v) := by
  unfold TrainLocation.layout; plain
instance : PlainLayout TrainLocation.layout := ⟨TrainLocation.plain⟩

theorem BuildingAnnex.plain (v : Version) (x : BuildingAnnex) : Plain (x.layout v) := by
  unfold BuildingAnnex.layout; plain
instance : PlainLayout BuildingAnnex.layout := ⟨BuildingAnnex.plain⟩

theorem Building.plain (v : Version) (x : Building) : Plain (x.layout v) := by
  unfold Building.layout; plain
instance : PlainLayout Building.layout := ⟨Building.plain⟩

end Genie
