import Verif.Proof.Fails
/-! # Every class raises the exception of its first item that cannot be written -/

namespace Genie

theorem EffectCommand.fails (v : Version) (x : EffectCommand) : Fails (x.toBytes v) (x.layout v) := by
  unfold EffectCommand.toBytes EffectCommand.layout
  fails
instance : HasChecks EffectCommand.toBytes EffectCommand.layout := ⟨EffectCommand.fails⟩

theorem Effect.fails (v : Version) (x : Effect) : Fails (x.toBytes v) (x.layout v) := by
  unfold Effect.toBytes Effect.layout
  fails
instance : HasChecks Effect.toBytes Effect.layout := ⟨Effect.fails⟩

theorem SoundItem.fails (v : Version) (x : SoundItem) : Fails (x.toBytes v) (x.layout v) := by
  unfold SoundItem.toBytes SoundItem.layout
  fails
instance : HasChecks SoundItem.toBytes SoundItem.layout := ⟨SoundItem.fails⟩

theorem Sound.fails (v : Version) (x : Sound) : Fails (x.toBytes v) (x.layout v) := by
  unfold Sound.toBytes Sound.layout
  fails
instance : HasChecks Sound.toBytes Sound.layout := ⟨Sound.fails⟩

theorem PlayerColour.fails (v : Version) (x : PlayerColour) : Fails (x.toBytes v) (x.layout v) := by
  unfold PlayerColour.toBytes PlayerColour.layout
  fails
instance : HasChecks PlayerColour.toBytes PlayerColour.layout := ⟨PlayerColour.fails⟩

theorem GraphicDelta.fails (v : Version) (x : GraphicDelta) : Fails (x.toBytes v) (x.layout v) := by
  unfold GraphicDelta.toBytes GraphicDelta.layout
  fails
instance : HasChecks GraphicDelta.toBytes GraphicDelta.layout := ⟨GraphicDelta.fails⟩

theorem GraphicAngleSound.fails (v : Version) (x : GraphicAngleSound) : Fails (x.toBytes v) (x.layout v) := by
  unfold GraphicAngleSound.toBytes GraphicAngleSound.layout
  fails
instance : HasChecks GraphicAngleSound.toBytes GraphicAngleSound.layout := ⟨GraphicAngleSound.fails⟩

theorem Graphic.fails (v : Version) (x : Graphic) : Fails (x.toBytes v) (x.layout v) := by
  unfold Graphic.toBytes Graphic.layout
  fails
instance : HasChecks Graphic.toBytes Graphic.layout := ⟨Graphic.fails⟩

theorem TerrainPassGraphic.fails (v : Version) (x : TerrainPassGraphic) : Fails (x.toBytes v) (x.layout v) := by
  unfold TerrainPassGraphic.toBytes TerrainPassGraphic.layout
  fails
instance : HasChecks TerrainPassGraphic.toBytes TerrainPassGraphic.layout := ⟨TerrainPassGraphic.fails⟩

theorem TerrainRestriction.fails (v : Version) (x : TerrainRestriction) : Fails (x.toBytes v) (x.layout v) := by
  unfold TerrainRestriction.toBytes TerrainRestriction.layout
  rw [ite_not, List.flatten_cons]
  refine Fails.requires ?_
  fails
instance : HasChecks TerrainRestriction.toBytes TerrainRestriction.layout := ⟨TerrainRestriction.fails⟩

theorem FrameData.fails (v : Version) (x : FrameData) : Fails (x.toBytes v) (x.layout v) := by
  unfold FrameData.toBytes FrameData.layout
  fails
instance : HasChecks FrameData.toBytes FrameData.layout := ⟨FrameData.fails⟩

theorem Terrain.fails (v : Version) (x : Terrain) : Fails (x.toBytes v) (x.layout v) := by
  unfold Terrain.toBytes Terrain.layout
  fails
instance : HasChecks Terrain.toBytes Terrain.layout := ⟨Terrain.fails⟩

theorem TileSize.fails (v : Version) (x : TileSize) : Fails (x.toBytes v) (x.layout v) := by
  unfold TileSize.toBytes TileSize.layout
  fails
instance : HasChecks TileSize.toBytes TileSize.layout := ⟨TileSize.fails⟩

theorem TerrainBlock.fails (v : Version) (x : TerrainBlock) : Fails (x.toBytes v) (x.layout v) := by
  unfold TerrainBlock.toBytes TerrainBlock.layout
  fails
instance : HasChecks TerrainBlock.toBytes TerrainBlock.layout := ⟨TerrainBlock.fails⟩

theorem MapUnit.fails (v : Version) (x : MapUnit) : Fails (x.toBytes v) (x.layout v) := by
  unfold MapUnit.toBytes MapUnit.layout
  fails
instance : HasChecks MapUnit.toBytes MapUnit.layout := ⟨MapUnit.fails⟩

theorem MapTerrain.fails (v : Version) (x : MapTerrain) : Fails (x.toBytes v) (x.layout v) := by
  unfold MapTerrain.toBytes MapTerrain.layout
  fails
instance : HasChecks MapTerrain.toBytes MapTerrain.layout := ⟨MapTerrain.fails⟩

theorem MapLand.fails (v : Version) (x : MapLand) : Fails (x.toBytes v) (x.layout v) := by
  unfold MapLand.toBytes MapLand.layout
  fails
instance : HasChecks MapLand.toBytes MapLand.layout := ⟨MapLand.fails⟩

theorem MapElevation.fails (v : Version) (x : MapElevation) : Fails (x.toBytes v) (x.layout v) := by
  unfold MapElevation.toBytes MapElevation.layout
  fails
instance : HasChecks MapElevation.toBytes MapElevation.layout := ⟨MapElevation.fails⟩

theorem MapInfo.fails (v : Version) (x : MapInfo) : Fails (x.toBytes v) (x.layout v) := by
  unfold MapInfo.toBytes MapInfo.layout
  fails
instance : HasChecks MapInfo.toBytes MapInfo.layout := ⟨MapInfo.fails⟩

theorem RandomMaps.fails (v : Version) (x : RandomMaps) : Fails (x.toBytes v) (x.layout v) := by
  unfold RandomMaps.toBytes RandomMaps.layout
  rw [ite_not, List.flatten_cons]
  refine Fails.requires ?_
  fails
instance : HasChecks RandomMaps.toBytes RandomMaps.layout := ⟨RandomMaps.fails⟩

theorem ResearchResourceCost.fails (v : Version) (x : ResearchResourceCost) : Fails (x.toBytes v) (x.layout v) := by
  unfold ResearchResourceCost.toBytes ResearchResourceCost.layout
  fails
instance : HasChecks ResearchResourceCost.toBytes ResearchResourceCost.layout := ⟨ResearchResourceCost.fails⟩

theorem ResearchLocation.fails (v : Version) (x : ResearchLocation) : Fails (x.toBytes v) (x.layout v) := by
  unfold ResearchLocation.toBytes ResearchLocation.layout
  fails
instance : HasChecks ResearchLocation.toBytes ResearchLocation.layout := ⟨ResearchLocation.fails⟩

theorem Tech.fails (v : Version) (x : Tech) : Fails (x.toBytes v) (x.layout v) := by
  unfold Tech.toBytes Tech.layout
  refine Fails.ite (ge88_iff v) (fun _ _ => ?_) (fun _ _ => ?_)
  · unfold Tech.toBytes88; fails
  · unfold Tech.toBytes84 Tech.location84
    cases x.research_locations <;> dsimp only <;> fails
instance : HasChecks Tech.toBytes Tech.layout := ⟨Tech.fails⟩

theorem Common.fails (v : Version) (x : Common) : Fails (x.toBytes v) (x.layout v) := by
  unfold Common.toBytes Common.layout
  fails
instance : HasChecks Common.toBytes Common.layout := ⟨Common.fails⟩

theorem TechTreeAge.fails (v : Version) (x : TechTreeAge) : Fails (x.toBytes v) (x.layout v) := by
  unfold TechTreeAge.toBytes TechTreeAge.layout
  fails
instance : HasChecks TechTreeAge.toBytes TechTreeAge.layout := ⟨TechTreeAge.fails⟩

theorem BuildingConnection.fails (v : Version) (x : BuildingConnection) : Fails (x.toBytes v) (x.layout v) := by
  unfold BuildingConnection.toBytes BuildingConnection.layout
  fails
instance : HasChecks BuildingConnection.toBytes BuildingConnection.layout := ⟨BuildingConnection.fails⟩

theorem UnitConnection.fails (v : Version) (x : UnitConnection) : Fails (x.toBytes v) (x.layout v) := by
  unfold UnitConnection.toBytes UnitConnection.layout
  fails
instance : HasChecks UnitConnection.toBytes UnitConnection.layout := ⟨UnitConnection.fails⟩

theorem ResearchConnection.fails (v : Version) (x : ResearchConnection) : Fails (x.toBytes v) (x.layout v) := by
  unfold ResearchConnection.toBytes ResearchConnection.layout
  fails
instance : HasChecks ResearchConnection.toBytes ResearchConnection.layout := ⟨ResearchConnection.fails⟩

theorem TechTree.fails (v : Version) (x : TechTree) : Fails (x.toBytes v) (x.layout v) := by
  unfold TechTree.toBytes TechTree.layout
  fails
instance : HasChecks TechTree.toBytes TechTree.layout := ⟨TechTree.fails⟩

theorem Task.fails (v : Version) (x : Task) : Fails (x.toBytes v) (x.layout v) := by
  unfold Task.toBytes Task.layout
  by_cases h : 88 ≤ v.num
  · rw [if_pos ((ge88_iff v).2 h)]
    simp only [if_pos h]
    exact Fails.block _ (by decide +kernel)
  · rw [if_neg (fun k => h ((ge88_iff v).1 k))]
    simp only [if_neg h]
    exact Fails.block _ (by decide +kernel)
instance : HasChecks Task.toBytes Task.layout := ⟨Task.fails⟩

theorem UnitHeaders.fails (v : Version) (x : UnitHeaders) : Fails (x.toBytes v) (x.layout v) := by
  unfold UnitHeaders.toBytes UnitHeaders.layout
  refine Fails.append (Fails.u8 _) ?_
  unfold writeIf Layout.part
  by_cases h : x.exists_ ≠ 0
  · simp only [if_pos h]
    cases x.task_list with
    | none => exact Fails.nil
    | some l => exact Fails.append (Fails.countI16 _) (by rw [joinB_single]; fails)
  · simp only [if_neg h]; exact Fails.nil
instance : HasChecks UnitHeaders.toBytes UnitHeaders.layout := ⟨UnitHeaders.fails⟩

theorem ResourceStorage.fails (v : Version) (x : ResourceStorage) : Fails (x.toBytes v) (x.layout v) := by
  unfold ResourceStorage.toBytes ResourceStorage.layout
  fails
instance : HasChecks ResourceStorage.toBytes ResourceStorage.layout := ⟨ResourceStorage.fails⟩

theorem DamageGraphic.fails (v : Version) (x : DamageGraphic) : Fails (x.toBytes v) (x.layout v) := by
  unfold DamageGraphic.toBytes DamageGraphic.layout
  fails
instance : HasChecks DamageGraphic.toBytes DamageGraphic.layout := ⟨DamageGraphic.fails⟩

theorem DeadFish.fails (v : Version) (x : DeadFish) : Fails (x.toBytes v) (x.layout v) := by
  unfold DeadFish.toBytes DeadFish.layout
  fails
instance : HasChecks DeadFish.toBytes DeadFish.layout := ⟨DeadFish.fails⟩

theorem Bird.fails (v : Version) (x : Bird) : Fails (x.toBytes v) (x.layout v) := by
  unfold Bird.toBytes Bird.layout
  fails
instance : HasChecks Bird.toBytes Bird.layout := ⟨Bird.fails⟩

theorem AttackOrArmor.fails (v : Version) (x : AttackOrArmor) : Fails (x.toBytes v) (x.layout v) := by
  unfold AttackOrArmor.toBytes AttackOrArmor.layout
  fails
instance : HasChecks AttackOrArmor.toBytes AttackOrArmor.layout := ⟨AttackOrArmor.fails⟩

theorem Type50.fails (v : Version) (x : Type50) : Fails (x.toBytes v) (x.layout v) := by
  unfold Type50.toBytes Type50.layout
  rw [joinB_nest_left]
  dsimp only [List.cons_append, List.nil_append]
  fails
  unfold Layout.since
  exact Fails.ite (ge84_iff v) (fun _ _ => by fails) (fun _ _ => Fails.nil)
instance : HasChecks Type50.toBytes Type50.layout := ⟨Type50.fails⟩

theorem Projectile.fails (v : Version) (x : Projectile) : Fails (x.toBytes v) (x.layout v) := by
  unfold Projectile.toBytes Projectile.layout
  fails
instance : HasChecks Projectile.toBytes Projectile.layout := ⟨Projectile.fails⟩

theorem ResourceCost.fails (v : Version) (x : ResourceCost) : Fails (x.toBytes v) (x.layout v) := by
  unfold ResourceCost.toBytes ResourceCost.layout
  fails
instance : HasChecks ResourceCost.toBytes ResourceCost.layout := ⟨ResourceCost.fails⟩

theorem TrainLocation.fails (v : Version) (x : TrainLocation) : Fails (x.toBytes v) (x.layout v) := by
  unfold TrainLocation.toBytes TrainLocation.layout
  exact Fails.ite (ge88_iff v) (fun _ _ => Fails.block _ (by decide +kernel)) (fun _ _ => Fails.block _ (by decide +kernel))
instance : HasChecks TrainLocation.toBytes TrainLocation.layout := ⟨TrainLocation.fails⟩

theorem Creatable.fails (v : Version) (x : Creatable) : Fails (x.toBytes v) (x.layout v) := by
  unfold Creatable.toBytes Creatable.layout
  by_cases h88 : 88 ≤ v.num
  · rw [if_pos ((ge88_iff v).2 h88), if_pos h88]
    unfold Creatable.toBytes88
    refine Fails.append (by fails) ?_
    fails
  · rw [if_neg (fun k => h88 ((ge88_iff v).1 k)), if_neg h88]
    by_cases h84 : 84 ≤ v.num
    · rw [if_pos ((ge84_iff v).2 h84)]
      unfold Creatable.toBytes84
      refine Fails.append (by fails) ?_
      rw [joinB_single]
      cases x.train_locations with
      | nil => exact Fails.fail
      | cons t ts => dsimp only; rw [if_pos h84]; exact Fails.block _ (by decide +kernel)
    · rw [if_neg (fun k => h84 ((ge84_iff v).1 k))]
      unfold Creatable.toBytes78
      refine Fails.append (by fails) ?_
      rw [joinB_single]
      cases x.train_locations with
      | nil => exact Fails.fail
      | cons t ts => dsimp only; rw [if_neg h84]; exact Fails.block _ (by decide +kernel)
instance : HasChecks Creatable.toBytes Creatable.layout := ⟨Creatable.fails⟩

theorem BuildingAnnex.fails (v : Version) (x : BuildingAnnex) : Fails (x.toBytes v) (x.layout v) := by
  unfold BuildingAnnex.toBytes BuildingAnnex.layout
  fails
instance : HasChecks BuildingAnnex.toBytes BuildingAnnex.layout := ⟨BuildingAnnex.fails⟩

theorem Building.fails (v : Version) (x : Building) : Fails (x.toBytes v) (x.layout v) := by
  unfold Building.toBytes Building.layout
  fails
instance : HasChecks Building.toBytes Building.layout := ⟨Building.fails⟩

theorem Unit.fails (v : Version) (x : Unit) : Fails (x.toBytes v) (x.checks v) := by
  have e20 : x.type ≠ UnitType.AoeTrees ∧ x.type ≥ UnitType.Flag ↔ x.type ≠ 90 ∧ 20 ≤ x.type := Iff.rfl
  have e30 : x.type ≠ UnitType.AoeTrees ∧ x.type ≥ UnitType.Flag ∧ x.type ≥ UnitType.DeadFish ↔ x.type ≠ 90 ∧ 30 ≤ x.type := by
    unfold UnitType.AoeTrees UnitType.Flag UnitType.DeadFish; omega
  have e40 : x.type ≠ UnitType.AoeTrees ∧ x.type ≥ UnitType.Flag ∧ x.type ≥ UnitType.Bird ↔ x.type ≠ 90 ∧ 40 ≤ x.type := by
    unfold UnitType.AoeTrees UnitType.Flag UnitType.Bird; omega
  have e50 : x.type ≠ UnitType.AoeTrees ∧ x.type ≥ UnitType.Flag ∧ x.type ≥ UnitType.Combatant ↔ x.type ≠ 90 ∧ 50 ≤ x.type := by
    unfold UnitType.AoeTrees UnitType.Flag UnitType.Combatant; omega
  have e60 : x.type ≠ UnitType.AoeTrees ∧ x.type ≥ UnitType.Flag ∧ x.type = UnitType.Projectile ↔ x.type = 60 := by
    unfold UnitType.AoeTrees UnitType.Flag UnitType.Projectile; omega
  have e70 : x.type ≠ UnitType.AoeTrees ∧ x.type ≥ UnitType.Flag ∧ x.type ≥ UnitType.Creatable ↔ x.type ≠ 90 ∧ 70 ≤ x.type := by
    unfold UnitType.AoeTrees UnitType.Flag UnitType.Creatable; omega
  have e80 : x.type ≠ UnitType.AoeTrees ∧ x.type ≥ UnitType.Flag ∧ x.type = UnitType.Building ↔ x.type = 80 := by
    unfold UnitType.AoeTrees UnitType.Flag UnitType.Building; omega
  have p1 := Fails.part e20 (fun y => Fails.f32 y) x.speed
  have p2 := Fails.part e30 (fun y => Fails.classI (f := DeadFish.toBytes) (v := v) y) x.dead_fish
  have p3 := Fails.part e40 (fun y => Fails.classI (f := Bird.toBytes) (v := v) y) x.bird
  have p4 := Fails.part e50 (fun y => Fails.classI (f := Type50.toBytes) (v := v) y) x.type_50
  have p5 := Fails.part e60 (fun y => Fails.classI (f := Projectile.toBytes) (v := v) y) x.projectile
  have p6 := Fails.part e70 (fun y => Fails.classI (f := Creatable.toBytes) (v := v) y) x.creatable
  have p7 := Fails.part e80 (fun y => Fails.classI (f := Building.toBytes) (v := v) y) x.building
  unfold Unit.toBytes Unit.checks
  by_cases h : 88 ≤ v.num
  · rw [if_pos ((ge88_iff v).2 h)]
    unfold Unit.toBytes88
    simp only [if_pos h, List.append_nil]
    rw [List.flatten_cons]; refine Fails.bindPart p1 fun s1 h1 => ?_
    rw [List.flatten_cons]; refine Fails.bindPart p2 fun s2 h2 => ?_
    rw [List.flatten_cons]; refine Fails.bindPart p3 fun s3 h3 => ?_
    rw [List.flatten_cons]; refine Fails.bindPart p4 fun s4 h4 => ?_
    rw [List.flatten_cons]; refine Fails.bindPart p5 fun s5 h5 => ?_
    rw [List.flatten_cons]; refine Fails.bindPart p6 fun s6 h6 => ?_
    rw [List.flatten_cons]; refine Fails.bindPart p7 fun s7 h7 => ?_
    rw [joinB_nest]
    fails
    all_goals first
      | (repeat refine Fails.okCons ?_); exact Fails.joinNil
      | (simp only [List.append_assoc, List.cons_append, List.nil_append]; exact Fails.block _ (by decide +kernel))
  · rw [if_neg (fun k => h ((ge88_iff v).1 k))]
    unfold Unit.toBytes84
    simp only [if_neg h]
    rw [List.flatten_cons]; refine Fails.bindPart p1 fun s1 h1 => ?_
    rw [List.flatten_cons]; refine Fails.bindPart p2 fun s2 h2 => ?_
    rw [List.flatten_cons]; refine Fails.bindPart p3 fun s3 h3 => ?_
    rw [List.flatten_cons]; refine Fails.bindPart p4 fun s4 h4 => ?_
    rw [List.flatten_cons]; refine Fails.bindPart p5 fun s5 h5 => ?_
    rw [List.flatten_cons]; refine Fails.bindPart p6 fun s6 h6 => ?_
    rw [List.flatten_cons]; refine Fails.bindPart p7 fun s7 h7 => ?_
    rw [joinB_nest]
    fails
    all_goals first
      | (repeat refine Fails.okCons ?_); exact Fails.joinNil
      | (simp only [List.append_assoc, List.cons_append, List.nil_append]; exact Fails.block _ (by decide +kernel))
instance : HasChecks Unit.toBytes Unit.checks := ⟨Unit.fails⟩

theorem Civ.fails (v : Version) (x : Civ) : Fails (x.toBytes v) (x.checks v) := by
  unfold Civ.toBytes Civ.checks Civ.unit_pointers
  fails
  exact Fails.pointers rfl fun _ => rfl
instance : HasChecks Civ.toBytes Civ.checks := ⟨Civ.fails⟩

set_option maxRecDepth 4000 in
theorem DatFile.failsAt {v : Version} {x : DatFile} (hv : Version.ofStr x.version = .ok v) : Fails x.toBytes (x.checksAt v) := by
  unfold DatFile.toBytes DatFile.toBytesGiven
  rw [hv]
  dsimp only
  unfold DatFile.checksAt
  rw [List.flatten_cons, List.flatten_cons]
  refine Fails.requires2 ?_
  have ht : Fails (writeInt16 x.terrains_used) x.terrainItems := by
    unfold DatFile.terrains_used DatFile.terrainItems DatFile.terrainCount
    cases x.terrain_restrictions with
    | nil => exact Fails.idle2
    | cons r l => exact (Writes.count _ 2 true).fails_single
  fails
  · exact ht
  · unfold DatFile.graphic_pointers; exact Fails.pointers rfl fun _ => rfl

theorem DatFile.fails (x : DatFile) : Fails x.toBytes x.checks := by
  unfold DatFile.checks
  have h := ofStr_eq x.version
  cases hl : writableVersions.lookup x.version with
  | some v => rw [hl] at h; exact DatFile.failsAt h
  | none =>
    rw [hl] at h
    unfold DatFile.toBytes DatFile.toBytesGiven
    rw [h]
    exact Fails.fail

end Genie
