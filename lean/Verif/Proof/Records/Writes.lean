import Verif.Proof.Writes
/-! # Every class writes its layout (generated by `tools/gen_writes.py`) -/

namespace Genie

theorem EffectCommand.writes (v : Version) (x : EffectCommand) : Writes (x.toBytes v) (x.layout v) := by
  unfold EffectCommand.toBytes EffectCommand.layout
  writes
instance : HasLayout EffectCommand.toBytes EffectCommand.layout := ⟨EffectCommand.writes⟩

theorem Effect.writes (v : Version) (x : Effect) : Writes (x.toBytes v) (x.layout v) := by
  unfold Effect.toBytes Effect.layout
  writes
instance : HasLayout Effect.toBytes Effect.layout := ⟨Effect.writes⟩

theorem SoundItem.writes (v : Version) (x : SoundItem) : Writes (x.toBytes v) (x.layout v) := by
  unfold SoundItem.toBytes SoundItem.layout
  writes
instance : HasLayout SoundItem.toBytes SoundItem.layout := ⟨SoundItem.writes⟩

theorem Sound.writes (v : Version) (x : Sound) : Writes (x.toBytes v) (x.layout v) := by
  unfold Sound.toBytes Sound.layout
  writes
instance : HasLayout Sound.toBytes Sound.layout := ⟨Sound.writes⟩

theorem PlayerColour.writes (v : Version) (x : PlayerColour) : Writes (x.toBytes v) (x.layout v) := by
  unfold PlayerColour.toBytes PlayerColour.layout
  writes
instance : HasLayout PlayerColour.toBytes PlayerColour.layout := ⟨PlayerColour.writes⟩

theorem GraphicDelta.writes (v : Version) (x : GraphicDelta) : Writes (x.toBytes v) (x.layout v) := by
  unfold GraphicDelta.toBytes GraphicDelta.layout
  writes
instance : HasLayout GraphicDelta.toBytes GraphicDelta.layout := ⟨GraphicDelta.writes⟩

theorem GraphicAngleSound.writes (v : Version) (x : GraphicAngleSound) : Writes (x.toBytes v) (x.layout v) := by
  unfold GraphicAngleSound.toBytes GraphicAngleSound.layout
  writes
instance : HasLayout GraphicAngleSound.toBytes GraphicAngleSound.layout := ⟨GraphicAngleSound.writes⟩

theorem Graphic.writes (v : Version) (x : Graphic) : Writes (x.toBytes v) (x.layout v) := by
  unfold Graphic.toBytes Graphic.layout
  writes
instance : HasLayout Graphic.toBytes Graphic.layout := ⟨Graphic.writes⟩

theorem TerrainPassGraphic.writes (v : Version) (x : TerrainPassGraphic) : Writes (x.toBytes v) (x.layout v) := by
  unfold TerrainPassGraphic.toBytes TerrainPassGraphic.layout
  writes
instance : HasLayout TerrainPassGraphic.toBytes TerrainPassGraphic.layout := ⟨TerrainPassGraphic.writes⟩

theorem TerrainRestriction.writes (v : Version) (x : TerrainRestriction) : Writes (x.toBytes v) (x.layout v) := by
  unfold TerrainRestriction.toBytes TerrainRestriction.layout
  rw [ite_not, List.flatten_cons]
  refine Writes.requires ?_
  writes
instance : HasLayout TerrainRestriction.toBytes TerrainRestriction.layout := ⟨TerrainRestriction.writes⟩

theorem FrameData.writes (v : Version) (x : FrameData) : Writes (x.toBytes v) (x.layout v) := by
  unfold FrameData.toBytes FrameData.layout
  writes
instance : HasLayout FrameData.toBytes FrameData.layout := ⟨FrameData.writes⟩

theorem Terrain.writes (v : Version) (x : Terrain) : Writes (x.toBytes v) (x.layout v) := by
  unfold Terrain.toBytes Terrain.layout
  writes
instance : HasLayout Terrain.toBytes Terrain.layout := ⟨Terrain.writes⟩

theorem TileSize.writes (v : Version) (x : TileSize) : Writes (x.toBytes v) (x.layout v) := by
  unfold TileSize.toBytes TileSize.layout
  writes
instance : HasLayout TileSize.toBytes TileSize.layout := ⟨TileSize.writes⟩

theorem TerrainBlock.writes (v : Version) (x : TerrainBlock) : Writes (x.toBytes v) (x.layout v) := by
  unfold TerrainBlock.toBytes TerrainBlock.layout
  writes
instance : HasLayout TerrainBlock.toBytes TerrainBlock.layout := ⟨TerrainBlock.writes⟩

theorem MapUnit.writes (v : Version) (x : MapUnit) : Writes (x.toBytes v) (x.layout v) := by
  unfold MapUnit.toBytes MapUnit.layout
  writes
instance : HasLayout MapUnit.toBytes MapUnit.layout := ⟨MapUnit.writes⟩

theorem MapTerrain.writes (v : Version) (x : MapTerrain) : Writes (x.toBytes v) (x.layout v) := by
  unfold MapTerrain.toBytes MapTerrain.layout
  writes
instance : HasLayout MapTerrain.toBytes MapTerrain.layout := ⟨MapTerrain.writes⟩

theorem MapLand.writes (v : Version) (x : MapLand) : Writes (x.toBytes v) (x.layout v) := by
  unfold MapLand.toBytes MapLand.layout
  writes
instance : HasLayout MapLand.toBytes MapLand.layout := ⟨MapLand.writes⟩

theorem MapElevation.writes (v : Version) (x : MapElevation) : Writes (x.toBytes v) (x.layout v) := by
  unfold MapElevation.toBytes MapElevation.layout
  writes
instance : HasLayout MapElevation.toBytes MapElevation.layout := ⟨MapElevation.writes⟩

theorem MapInfo.writes (v : Version) (x : MapInfo) : Writes (x.toBytes v) (x.layout v) := by
  unfold MapInfo.toBytes MapInfo.layout
  writes
instance : HasLayout MapInfo.toBytes MapInfo.layout := ⟨MapInfo.writes⟩

theorem RandomMaps.writes (v : Version) (x : RandomMaps) : Writes (x.toBytes v) (x.layout v) := by
  unfold RandomMaps.toBytes RandomMaps.layout
  rw [ite_not, List.flatten_cons]
  refine Writes.requires ?_
  writes
instance : HasLayout RandomMaps.toBytes RandomMaps.layout := ⟨RandomMaps.writes⟩

theorem ResearchResourceCost.writes (v : Version) (x : ResearchResourceCost) : Writes (x.toBytes v) (x.layout v) := by
  unfold ResearchResourceCost.toBytes ResearchResourceCost.layout
  writes
instance : HasLayout ResearchResourceCost.toBytes ResearchResourceCost.layout := ⟨ResearchResourceCost.writes⟩

theorem ResearchLocation.writes (v : Version) (x : ResearchLocation) : Writes (x.toBytes v) (x.layout v) := by
  unfold ResearchLocation.toBytes ResearchLocation.layout
  writes
instance : HasLayout ResearchLocation.toBytes ResearchLocation.layout := ⟨ResearchLocation.writes⟩

theorem Tech.writes (v : Version) (x : Tech) : Writes (x.toBytes v) (x.layout v) := by
  unfold Tech.toBytes Tech.layout
  refine Writes.ite (ge88_iff v) (fun _ _ => ?_) (fun _ _ => ?_)
  · unfold Tech.toBytes88; writes
  · unfold Tech.toBytes84 Tech.location84
    cases x.research_locations <;> dsimp only <;> writes
instance : HasLayout Tech.toBytes Tech.layout := ⟨Tech.writes⟩

theorem Common.writes (v : Version) (x : Common) : Writes (x.toBytes v) (x.layout v) := by
  unfold Common.toBytes Common.layout
  writes
instance : HasLayout Common.toBytes Common.layout := ⟨Common.writes⟩

theorem TechTreeAge.writes (v : Version) (x : TechTreeAge) : Writes (x.toBytes v) (x.layout v) := by
  unfold TechTreeAge.toBytes TechTreeAge.layout
  writes
instance : HasLayout TechTreeAge.toBytes TechTreeAge.layout := ⟨TechTreeAge.writes⟩

theorem BuildingConnection.writes (v : Version) (x : BuildingConnection) : Writes (x.toBytes v) (x.layout v) := by
  unfold BuildingConnection.toBytes BuildingConnection.layout
  writes
instance : HasLayout BuildingConnection.toBytes BuildingConnection.layout := ⟨BuildingConnection.writes⟩

theorem UnitConnection.writes (v : Version) (x : UnitConnection) : Writes (x.toBytes v) (x.layout v) := by
  unfold UnitConnection.toBytes UnitConnection.layout
  writes
instance : HasLayout UnitConnection.toBytes UnitConnection.layout := ⟨UnitConnection.writes⟩

theorem ResearchConnection.writes (v : Version) (x : ResearchConnection) : Writes (x.toBytes v) (x.layout v) := by
  unfold ResearchConnection.toBytes ResearchConnection.layout
  writes
instance : HasLayout ResearchConnection.toBytes ResearchConnection.layout := ⟨ResearchConnection.writes⟩

theorem TechTree.writes (v : Version) (x : TechTree) : Writes (x.toBytes v) (x.layout v) := by
  unfold TechTree.toBytes TechTree.layout
  writes
instance : HasLayout TechTree.toBytes TechTree.layout := ⟨TechTree.writes⟩

theorem Task.writes (v : Version) (x : Task) : Writes (x.toBytes v) (x.layout v) := by
  unfold Task.toBytes Task.layout
  by_cases h : 88 ≤ v.num
  · rw [if_pos ((ge88_iff v).2 h)]
    simp only [if_pos h]
    exact Writes.block _ (by decide +kernel)
  · rw [if_neg (fun k => h ((ge88_iff v).1 k))]
    simp only [if_neg h]
    exact Writes.block _ (by decide +kernel)
instance : HasLayout Task.toBytes Task.layout := ⟨Task.writes⟩

theorem UnitHeaders.writes (v : Version) (x : UnitHeaders) : Writes (x.toBytes v) (x.layout v) := by
  unfold UnitHeaders.toBytes UnitHeaders.layout
  refine Writes.append (Writes.u8 _) ?_
  unfold writeIf Layout.part
  by_cases h : x.exists_ ≠ 0
  · simp only [if_pos h]
    cases x.task_list with
    | none => exact Writes.nil
    | some l => exact Writes.append (Writes.countI16 _) (by rw [joinB_single]; writes)
  · simp only [if_neg h]; exact Writes.nil
instance : HasLayout UnitHeaders.toBytes UnitHeaders.layout := ⟨UnitHeaders.writes⟩

theorem ResourceStorage.writes (v : Version) (x : ResourceStorage) : Writes (x.toBytes v) (x.layout v) := by
  unfold ResourceStorage.toBytes ResourceStorage.layout
  writes
instance : HasLayout ResourceStorage.toBytes ResourceStorage.layout := ⟨ResourceStorage.writes⟩

theorem DamageGraphic.writes (v : Version) (x : DamageGraphic) : Writes (x.toBytes v) (x.layout v) := by
  unfold DamageGraphic.toBytes DamageGraphic.layout
  writes
instance : HasLayout DamageGraphic.toBytes DamageGraphic.layout := ⟨DamageGraphic.writes⟩

theorem DeadFish.writes (v : Version) (x : DeadFish) : Writes (x.toBytes v) (x.layout v) := by
  unfold DeadFish.toBytes DeadFish.layout
  writes
instance : HasLayout DeadFish.toBytes DeadFish.layout := ⟨DeadFish.writes⟩

theorem Bird.writes (v : Version) (x : Bird) : Writes (x.toBytes v) (x.layout v) := by
  unfold Bird.toBytes Bird.layout
  writes
instance : HasLayout Bird.toBytes Bird.layout := ⟨Bird.writes⟩

theorem AttackOrArmor.writes (v : Version) (x : AttackOrArmor) : Writes (x.toBytes v) (x.layout v) := by
  unfold AttackOrArmor.toBytes AttackOrArmor.layout
  writes
instance : HasLayout AttackOrArmor.toBytes AttackOrArmor.layout := ⟨AttackOrArmor.writes⟩

theorem Type50.writes (v : Version) (x : Type50) : Writes (x.toBytes v) (x.layout v) := by
  unfold Type50.toBytes Type50.layout
  rw [joinB_nest_left]
  dsimp only [List.cons_append, List.nil_append]
  writes
  unfold Layout.since
  exact Writes.ite (ge84_iff v) (fun _ _ => by writes) (fun _ _ => Writes.nil)
instance : HasLayout Type50.toBytes Type50.layout := ⟨Type50.writes⟩

theorem Projectile.writes (v : Version) (x : Projectile) : Writes (x.toBytes v) (x.layout v) := by
  unfold Projectile.toBytes Projectile.layout
  writes
instance : HasLayout Projectile.toBytes Projectile.layout := ⟨Projectile.writes⟩

theorem ResourceCost.writes (v : Version) (x : ResourceCost) : Writes (x.toBytes v) (x.layout v) := by
  unfold ResourceCost.toBytes ResourceCost.layout
  writes
instance : HasLayout ResourceCost.toBytes ResourceCost.layout := ⟨ResourceCost.writes⟩

theorem TrainLocation.writes (v : Version) (x : TrainLocation) : Writes (x.toBytes v) (x.layout v) := by
  unfold TrainLocation.toBytes TrainLocation.layout
  exact Writes.ite (ge88_iff v) (fun _ _ => Writes.block _ (by decide +kernel)) (fun _ _ => Writes.block _ (by decide +kernel))
instance : HasLayout TrainLocation.toBytes TrainLocation.layout := ⟨TrainLocation.writes⟩

theorem Creatable.writes (v : Version) (x : Creatable) : Writes (x.toBytes v) (x.layout v) := by
  unfold Creatable.toBytes Creatable.layout
  by_cases h88 : 88 ≤ v.num
  · rw [if_pos ((ge88_iff v).2 h88), if_pos h88]
    unfold Creatable.toBytes88
    refine Writes.append (by writes) ?_
    writes
  · rw [if_neg (fun k => h88 ((ge88_iff v).1 k)), if_neg h88]
    by_cases h84 : 84 ≤ v.num
    · rw [if_pos ((ge84_iff v).2 h84)]
      unfold Creatable.toBytes84
      refine Writes.append (by writes) ?_
      rw [joinB_single]
      cases x.train_locations with
      | nil => exact Writes.fail
      | cons t ts => dsimp only; rw [if_pos h84]; exact Writes.block _ (by decide +kernel)
    · rw [if_neg (fun k => h84 ((ge84_iff v).1 k))]
      unfold Creatable.toBytes78
      refine Writes.append (by writes) ?_
      rw [joinB_single]
      cases x.train_locations with
      | nil => exact Writes.fail
      | cons t ts => dsimp only; rw [if_neg h84]; exact Writes.block _ (by decide +kernel)
instance : HasLayout Creatable.toBytes Creatable.layout := ⟨Creatable.writes⟩

theorem BuildingAnnex.writes (v : Version) (x : BuildingAnnex) : Writes (x.toBytes v) (x.layout v) := by
  unfold BuildingAnnex.toBytes BuildingAnnex.layout
  writes
instance : HasLayout BuildingAnnex.toBytes BuildingAnnex.layout := ⟨BuildingAnnex.writes⟩

theorem Building.writes (v : Version) (x : Building) : Writes (x.toBytes v) (x.layout v) := by
  unfold Building.toBytes Building.layout
  writes
instance : HasLayout Building.toBytes Building.layout := ⟨Building.writes⟩

theorem Unit.writes (v : Version) (x : Unit) : Writes (x.toBytes v) (x.layout v) := by
  have e20 : x.type ≠ UnitType.AoeTrees ∧ x.type ≥ UnitType.Flag ↔ x.type ≠ 90 ∧ 20 ≤ x.type := Iff.rfl
  have e30 : x.type ≠ UnitType.AoeTrees ∧ x.type ≥ UnitType.Flag ∧ x.type ≥ UnitType.DeadFish ↔ x.type ≠ 90 ∧ 30 ≤ x.type := by
    unfold UnitType.AoeTrees UnitType.Flag UnitType.DeadFish; omega
  have e40 : x.type ≠ UnitType.AoeTrees ∧ x.type ≥ UnitType.Flag ∧ x.type ≥ UnitType.Bird ↔ x.type ≠ 90 ∧ 40 ≤ x.type := by
    unfold UnitType.AoeTrees UnitType.Flag UnitType.Bird; omega
  have e50 : x.type ≠ UnitType.AoeTrees ∧ x.type ≥ UnitType.Flag ∧ x.type ≥ UnitType.Combatant ↔ x.type ≠ 90 ∧ 50 ≤ x.type := by
    unfold UnitType.AoeTrees UnitType.Flag UnitType.Combatant; omega
  have e60 : x.type ≠ UnitType.AoeTrees ∧ x.type ≥ UnitType.Flag ∧ x.type = UnitType.Projectile ↔ x.type = 60 := by
    unfold UnitType.AoeTrees UnitType.Flag UnitType.Projectile; omega
  have e70 : x.type ≠ UnitType.AoeTrees ∧ x.type ≥ UnitType.Flag ∧ x.type ≥ UnitType.Creatable ↔ x.type ≠ 90 ∧ 70 ≤ x.type := by
    unfold UnitType.AoeTrees UnitType.Flag UnitType.Creatable; omega
  have e80 : x.type ≠ UnitType.AoeTrees ∧ x.type ≥ UnitType.Flag ∧ x.type = UnitType.Building ↔ x.type = 80 := by
    unfold UnitType.AoeTrees UnitType.Flag UnitType.Building; omega
  have p1 := Writes.part e20 (fun y => Writes.f32 y) x.speed
  have p2 := Writes.part e30 (fun y => Writes.classI (f := DeadFish.toBytes) (v := v) y) x.dead_fish
  have p3 := Writes.part e40 (fun y => Writes.classI (f := Bird.toBytes) (v := v) y) x.bird
  have p4 := Writes.part e50 (fun y => Writes.classI (f := Type50.toBytes) (v := v) y) x.type_50
  have p5 := Writes.part e60 (fun y => Writes.classI (f := Projectile.toBytes) (v := v) y) x.projectile
  have p6 := Writes.part e70 (fun y => Writes.classI (f := Creatable.toBytes) (v := v) y) x.creatable
  have p7 := Writes.part e80 (fun y => Writes.classI (f := Building.toBytes) (v := v) y) x.building
  unfold Unit.toBytes Unit.layout
  by_cases h : 88 ≤ v.num
  · rw [if_pos ((ge88_iff v).2 h)]
    unfold Unit.toBytes88
    simp only [if_pos h, List.append_nil]
    refine Writes.bindPart p1 (by inFlatten) fun s1 h1 => ?_
    refine Writes.bindPart p2 (by inFlatten) fun s2 h2 => ?_
    refine Writes.bindPart p3 (by inFlatten) fun s3 h3 => ?_
    refine Writes.bindPart p4 (by inFlatten) fun s4 h4 => ?_
    refine Writes.bindPart p5 (by inFlatten) fun s5 h5 => ?_
    refine Writes.bindPart p6 (by inFlatten) fun s6 h6 => ?_
    refine Writes.bindPart p7 (by inFlatten) fun s7 h7 => ?_
    rw [h1] at p1; rw [h2] at p2; rw [h3] at p3; rw [h4] at p4; rw [h5] at p5; rw [h6] at p6; rw [h7] at p7
    rw [joinB_nest]
    writes
    all_goals first
      | assumption
      | (simp only [List.append_assoc, List.cons_append, List.nil_append]; exact Writes.block _ (by decide +kernel))
  · rw [if_neg (fun k => h ((ge88_iff v).1 k))]
    unfold Unit.toBytes84
    simp only [if_neg h]
    refine Writes.bindPart p1 (by inFlatten) fun s1 h1 => ?_
    refine Writes.bindPart p2 (by inFlatten) fun s2 h2 => ?_
    refine Writes.bindPart p3 (by inFlatten) fun s3 h3 => ?_
    refine Writes.bindPart p4 (by inFlatten) fun s4 h4 => ?_
    refine Writes.bindPart p5 (by inFlatten) fun s5 h5 => ?_
    refine Writes.bindPart p6 (by inFlatten) fun s6 h6 => ?_
    refine Writes.bindPart p7 (by inFlatten) fun s7 h7 => ?_
    rw [h1] at p1; rw [h2] at p2; rw [h3] at p3; rw [h4] at p4; rw [h5] at p5; rw [h6] at p6; rw [h7] at p7
    rw [joinB_nest]
    writes
    all_goals first
      | assumption
      | (simp only [List.append_assoc, List.cons_append, List.nil_append]; exact Writes.block _ (by decide +kernel))
instance : HasLayout Unit.toBytes Unit.layout := ⟨Unit.writes⟩

theorem Civ.writes (v : Version) (x : Civ) : Writes (x.toBytes v) (x.layout v) := by
  unfold Civ.toBytes Civ.layout Civ.unit_pointers
  writes
  exact Writes.pointers rfl fun _ => rfl
instance : HasLayout Civ.toBytes Civ.layout := ⟨Civ.writes⟩

end Genie
