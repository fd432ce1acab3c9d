import Verif.Proof.Sizes
import Verif.Proof.Records.WritesDat
import Verif.Spec.ClassLayout
/-! # The size of every record that can be written (generated by `tools/gen_sizes.py`) -/
set_option linter.unusedSimpArgs false

namespace Genie

theorem EffectCommand.sized (v : Version) (x : EffectCommand) : Sized (x.layout v) (x.size v) := by
  unfold EffectCommand.layout EffectCommand.size
  apply Sized.cast
  · sizes
  · omega
instance : HasSize EffectCommand.layout EffectCommand.size := ⟨EffectCommand.sized⟩
theorem EffectCommand.sum_size (v : Version) (l : List EffectCommand) : (l.map (EffectCommand.size v)).sum = 11 * l.length := sum_map_const 11 l
theorem EffectCommand.size_const (v : Version) (x : EffectCommand) : x.size v = 11 := rfl

theorem Effect.sized (v : Version) (x : Effect) : Sized (x.layout v) (x.size v) := by
  unfold Effect.layout Effect.size
  apply Sized.cast
  · sizes
  · simp only [EffectCommand.sum_size, EffectCommand.size_const] <;> omega
instance : HasSize Effect.layout Effect.size := ⟨Effect.sized⟩

theorem SoundItem.sized (v : Version) (x : SoundItem) : Sized (x.layout v) (x.size v) := by
  unfold SoundItem.layout SoundItem.size
  apply Sized.cast
  · sizes
  · omega
instance : HasSize SoundItem.layout SoundItem.size := ⟨SoundItem.sized⟩

theorem Sound.sized (v : Version) (x : Sound) : Sized (x.layout v) (x.size v) := by
  unfold Sound.layout Sound.size
  apply Sized.cast
  · sizes
  · omega
instance : HasSize Sound.layout Sound.size := ⟨Sound.sized⟩

theorem PlayerColour.sized (v : Version) (x : PlayerColour) : Sized (x.layout v) (x.size v) := by
  unfold PlayerColour.layout PlayerColour.size
  apply Sized.cast
  · sizes
  · omega
instance : HasSize PlayerColour.layout PlayerColour.size := ⟨PlayerColour.sized⟩
theorem PlayerColour.sum_size (v : Version) (l : List PlayerColour) : (l.map (PlayerColour.size v)).sum = 36 * l.length := sum_map_const 36 l
theorem PlayerColour.size_const (v : Version) (x : PlayerColour) : x.size v = 36 := rfl

theorem GraphicDelta.sized (v : Version) (x : GraphicDelta) : Sized (x.layout v) (x.size v) := by
  unfold GraphicDelta.layout GraphicDelta.size
  apply Sized.cast
  · sizes
  · omega
instance : HasSize GraphicDelta.layout GraphicDelta.size := ⟨GraphicDelta.sized⟩
theorem GraphicDelta.sum_size (v : Version) (l : List GraphicDelta) : (l.map (GraphicDelta.size v)).sum = 16 * l.length := sum_map_const 16 l
theorem GraphicDelta.size_const (v : Version) (x : GraphicDelta) : x.size v = 16 := rfl

theorem GraphicAngleSound.sized (v : Version) (x : GraphicAngleSound) : Sized (x.layout v) (x.size v) := by
  unfold GraphicAngleSound.layout GraphicAngleSound.size
  apply Sized.cast
  · sizes
  · omega
instance : HasSize GraphicAngleSound.layout GraphicAngleSound.size := ⟨GraphicAngleSound.sized⟩
theorem GraphicAngleSound.sum_size (v : Version) (l : List GraphicAngleSound) : (l.map (GraphicAngleSound.size v)).sum = 24 * l.length := sum_map_const 24 l
theorem GraphicAngleSound.size_const (v : Version) (x : GraphicAngleSound) : x.size v = 24 := rfl

theorem Graphic.sized (v : Version) (x : Graphic) : Sized (x.layout v) (x.size v) := by
  unfold Graphic.layout Graphic.size
  apply Sized.cast
  · sizes
  · simp only [GraphicDelta.sum_size, GraphicDelta.size_const, GraphicAngleSound.sum_size, GraphicAngleSound.size_const] <;> omega
instance : HasSize Graphic.layout Graphic.size := ⟨Graphic.sized⟩

theorem TerrainPassGraphic.sized (v : Version) (x : TerrainPassGraphic) : Sized (x.layout v) (x.size v) := by
  unfold TerrainPassGraphic.layout TerrainPassGraphic.size
  apply Sized.cast
  · sizes
  · omega
instance : HasSize TerrainPassGraphic.layout TerrainPassGraphic.size := ⟨TerrainPassGraphic.sized⟩
theorem TerrainPassGraphic.sum_size (v : Version) (l : List TerrainPassGraphic) : (l.map (TerrainPassGraphic.size v)).sum = 16 * l.length := sum_map_const 16 l
theorem TerrainPassGraphic.size_const (v : Version) (x : TerrainPassGraphic) : x.size v = 16 := rfl

theorem TerrainRestriction.sized (v : Version) (x : TerrainRestriction) : Sized (x.layout v) (x.size v) := by
  unfold TerrainRestriction.layout TerrainRestriction.size
  apply Sized.cast
  · sizes
  · simp only [TerrainPassGraphic.sum_size, TerrainPassGraphic.size_const] <;> omega
instance : HasSize TerrainRestriction.layout TerrainRestriction.size := ⟨TerrainRestriction.sized⟩

theorem FrameData.sized (v : Version) (x : FrameData) : Sized (x.layout v) (x.size v) := by
  unfold FrameData.layout FrameData.size
  apply Sized.cast
  · sizes
  · omega
instance : HasSize FrameData.layout FrameData.size := ⟨FrameData.sized⟩
theorem FrameData.sum_size (v : Version) (l : List FrameData) : (l.map (FrameData.size v)).sum = 6 * l.length := sum_map_const 6 l
theorem FrameData.size_const (v : Version) (x : FrameData) : x.size v = 6 := rfl

theorem Terrain.sized (v : Version) (x : Terrain) : Sized (x.layout v) (x.size v) := by
  unfold Terrain.layout Terrain.size
  apply Sized.cast
  · sizes
  · simp only [FrameData.sum_size, FrameData.size_const] <;> omega
instance : HasSize Terrain.layout Terrain.size := ⟨Terrain.sized⟩

theorem TileSize.sized (v : Version) (x : TileSize) : Sized (x.layout v) (x.size v) := by
  unfold TileSize.layout TileSize.size
  apply Sized.cast
  · sizes
  · omega
instance : HasSize TileSize.layout TileSize.size := ⟨TileSize.sized⟩
theorem TileSize.sum_size (v : Version) (l : List TileSize) : (l.map (TileSize.size v)).sum = 6 * l.length := sum_map_const 6 l
theorem TileSize.size_const (v : Version) (x : TileSize) : x.size v = 6 := rfl

theorem TerrainBlock.sized (v : Version) (x : TerrainBlock) : Sized (x.layout v) (x.size v) := by
  unfold TerrainBlock.layout TerrainBlock.size
  apply Sized.cast
  · sizes
  · simp only [TileSize.sum_size, TileSize.size_const] <;> omega
instance : HasSize TerrainBlock.layout TerrainBlock.size := ⟨TerrainBlock.sized⟩

theorem MapUnit.sized (v : Version) (x : MapUnit) : Sized (x.layout v) (x.size v) := by
  unfold MapUnit.layout MapUnit.size
  apply Sized.cast
  · sizes
  · omega
instance : HasSize MapUnit.layout MapUnit.size := ⟨MapUnit.sized⟩
theorem MapUnit.sum_size (v : Version) (l : List MapUnit) : (l.map (MapUnit.size v)).sum = 44 * l.length := sum_map_const 44 l
theorem MapUnit.size_const (v : Version) (x : MapUnit) : x.size v = 44 := rfl

theorem MapTerrain.sized (v : Version) (x : MapTerrain) : Sized (x.layout v) (x.size v) := by
  unfold MapTerrain.layout MapTerrain.size
  apply Sized.cast
  · sizes
  · omega
instance : HasSize MapTerrain.layout MapTerrain.size := ⟨MapTerrain.sized⟩
theorem MapTerrain.sum_size (v : Version) (l : List MapTerrain) : (l.map (MapTerrain.size v)).sum = 24 * l.length := sum_map_const 24 l
theorem MapTerrain.size_const (v : Version) (x : MapTerrain) : x.size v = 24 := rfl

theorem MapLand.sized (v : Version) (x : MapLand) : Sized (x.layout v) (x.size v) := by
  unfold MapLand.layout MapLand.size
  apply Sized.cast
  · sizes
  · omega
instance : HasSize MapLand.layout MapLand.size := ⟨MapLand.sized⟩
theorem MapLand.sum_size (v : Version) (l : List MapLand) : (l.map (MapLand.size v)).sum = 44 * l.length := sum_map_const 44 l
theorem MapLand.size_const (v : Version) (x : MapLand) : x.size v = 44 := rfl

theorem MapElevation.sized (v : Version) (x : MapElevation) : Sized (x.layout v) (x.size v) := by
  unfold MapElevation.layout MapElevation.size
  apply Sized.cast
  · sizes
  · omega
instance : HasSize MapElevation.layout MapElevation.size := ⟨MapElevation.sized⟩
theorem MapElevation.sum_size (v : Version) (l : List MapElevation) : (l.map (MapElevation.size v)).sum = 24 * l.length := sum_map_const 24 l
theorem MapElevation.size_const (v : Version) (x : MapElevation) : x.size v = 24 := rfl

theorem MapInfo.sized (v : Version) (x : MapInfo) : Sized (x.layout v) (x.size v) := by
  unfold MapInfo.layout MapInfo.size
  apply Sized.cast
  · sizes
  · simp only [MapUnit.sum_size, MapUnit.size_const, MapTerrain.sum_size, MapTerrain.size_const, MapLand.sum_size, MapLand.size_const, MapElevation.sum_size, MapElevation.size_const] <;> omega
instance : HasSize MapInfo.layout MapInfo.size := ⟨MapInfo.sized⟩

theorem RandomMaps.sized (v : Version) (x : RandomMaps) : Sized (x.layout v) (x.size v) := by
  unfold RandomMaps.layout RandomMaps.size
  apply Sized.cast
  · sizes
  · omega
instance : HasSize RandomMaps.layout RandomMaps.size := ⟨RandomMaps.sized⟩

theorem ResearchResourceCost.sized (v : Version) (x : ResearchResourceCost) : Sized (x.layout v) (x.size v) := by
  unfold ResearchResourceCost.layout ResearchResourceCost.size
  apply Sized.cast
  · sizes
  · omega
instance : HasSize ResearchResourceCost.layout ResearchResourceCost.size := ⟨ResearchResourceCost.sized⟩
theorem ResearchResourceCost.sum_size (v : Version) (l : List ResearchResourceCost) : (l.map (ResearchResourceCost.size v)).sum = 5 * l.length := sum_map_const 5 l
theorem ResearchResourceCost.size_const (v : Version) (x : ResearchResourceCost) : x.size v = 5 := rfl

theorem ResearchLocation.sized (v : Version) (x : ResearchLocation) : Sized (x.layout v) (x.size v) := by
  unfold ResearchLocation.layout ResearchLocation.size
  apply Sized.cast
  · sizes
  · omega
instance : HasSize ResearchLocation.layout ResearchLocation.size := ⟨ResearchLocation.sized⟩
theorem ResearchLocation.sum_size (v : Version) (l : List ResearchLocation) : (l.map (ResearchLocation.size v)).sum = 9 * l.length := sum_map_const 9 l
theorem ResearchLocation.size_const (v : Version) (x : ResearchLocation) : x.size v = 9 := rfl

theorem Tech.sized (v : Version) (x : Tech) : Sized (x.layout v) (x.size v) := by
  unfold Tech.layout Tech.size
  by_cases h : 88 ≤ v.num
  · simp only [if_pos h]
    apply Sized.cast
    · sizes
    · simp only [ResearchResourceCost.sum_size, ResearchResourceCost.size_const, ResearchLocation.sum_size, ResearchLocation.size_const]; omega
  · simp only [if_neg h]
    apply Sized.cast
    · sizes
    · simp only [ResearchResourceCost.sum_size, ResearchResourceCost.size_const, ResearchLocation.sum_size, ResearchLocation.size_const]; omega
instance : HasSize Tech.layout Tech.size := ⟨Tech.sized⟩

theorem Common.sized (v : Version) (x : Common) : Sized (x.layout v) (x.size v) := by
  unfold Common.layout Common.size
  apply Sized.cast
  · sizes
  · omega
instance : HasSize Common.layout Common.size := ⟨Common.sized⟩

theorem TechTreeAge.sized (v : Version) (x : TechTreeAge) : Sized (x.layout v) (x.size v) := by
  unfold TechTreeAge.layout TechTreeAge.size
  apply Sized.cast
  · sizes
  · omega
instance : HasSize TechTreeAge.layout TechTreeAge.size := ⟨TechTreeAge.sized⟩

theorem BuildingConnection.sized (v : Version) (x : BuildingConnection) : Sized (x.layout v) (x.size v) := by
  unfold BuildingConnection.layout BuildingConnection.size
  apply Sized.cast
  · sizes
  · omega
instance : HasSize BuildingConnection.layout BuildingConnection.size := ⟨BuildingConnection.sized⟩

theorem UnitConnection.sized (v : Version) (x : UnitConnection) : Sized (x.layout v) (x.size v) := by
  unfold UnitConnection.layout UnitConnection.size
  apply Sized.cast
  · sizes
  · omega
instance : HasSize UnitConnection.layout UnitConnection.size := ⟨UnitConnection.sized⟩

theorem ResearchConnection.sized (v : Version) (x : ResearchConnection) : Sized (x.layout v) (x.size v) := by
  unfold ResearchConnection.layout ResearchConnection.size
  apply Sized.cast
  · sizes
  · omega
instance : HasSize ResearchConnection.layout ResearchConnection.size := ⟨ResearchConnection.sized⟩

theorem TechTree.sized (v : Version) (x : TechTree) : Sized (x.layout v) (x.size v) := by
  unfold TechTree.layout TechTree.size
  apply Sized.cast
  · sizes
  · omega
instance : HasSize TechTree.layout TechTree.size := ⟨TechTree.sized⟩

theorem fmtSize0 : ((Layout.codes "hhbhhhhhhhhfffbfbbhhbbbhhhhhhllh").map Code.size).sum = 69 := by decide +kernel
theorem fmtSize1 : ((Layout.codes "hhbhhhhhhhhfffbfbbhhbbbhhhhhhll").map Code.size).sum = 67 := by decide +kernel
theorem Task.sized (v : Version) (x : Task) : Sized (x.layout v) (x.size v) := by
  unfold Task.layout Task.size
  by_cases h : 88 ≤ v.num
  · simp only [if_pos h]; exact Sized.block _ (by simp only [fmtSize0, fmtSize1])
  · simp only [if_neg h]; exact Sized.block _ (by simp only [fmtSize0, fmtSize1])
instance : HasSize Task.layout Task.size := ⟨Task.sized⟩

theorem UnitHeaders.sized (v : Version) (x : UnitHeaders) : Sized (x.layout v) (x.size v) := by
  unfold UnitHeaders.layout UnitHeaders.size
  refine Sized.append (Sized.u8 _) ?_
  unfold Layout.part
  by_cases h : x.exists_ = 0
  · rw [if_neg (by simp [h]), if_pos h]; exact Sized.nil
  · rw [if_pos h, if_neg h]
    cases x.task_list with
    | none => exact Sized.nil
    | some l => exact Sized.append (Sized.countI16 _) (Sized.classesI _)
instance : HasSize UnitHeaders.layout UnitHeaders.size := ⟨UnitHeaders.sized⟩

theorem fmtSize2 : ((Layout.codes "hfb").map Code.size).sum = 7 := by decide +kernel
theorem ResourceStorage.sized (v : Version) (x : ResourceStorage) : Sized (x.layout v) (x.size v) := by
  unfold ResourceStorage.layout ResourceStorage.size
  apply Sized.cast
  · sizes
  · simp only [fmtSize2] <;> omega
instance : HasSize ResourceStorage.layout ResourceStorage.size := ⟨ResourceStorage.sized⟩
theorem ResourceStorage.sum_size (v : Version) (l : List ResourceStorage) : (l.map (ResourceStorage.size v)).sum = 7 * l.length := sum_map_const 7 l
theorem ResourceStorage.size_const (v : Version) (x : ResourceStorage) : x.size v = 7 := rfl

theorem fmtSize3 : ((Layout.codes "hhb").map Code.size).sum = 5 := by decide +kernel
theorem DamageGraphic.sized (v : Version) (x : DamageGraphic) : Sized (x.layout v) (x.size v) := by
  unfold DamageGraphic.layout DamageGraphic.size
  apply Sized.cast
  · sizes
  · simp only [fmtSize3] <;> omega
instance : HasSize DamageGraphic.layout DamageGraphic.size := ⟨DamageGraphic.sized⟩
theorem DamageGraphic.sum_size (v : Version) (l : List DamageGraphic) : (l.map (DamageGraphic.size v)).sum = 5 * l.length := sum_map_const 5 l
theorem DamageGraphic.size_const (v : Version) (x : DamageGraphic) : x.size v = 5 := rfl

theorem fmtSize4 : ((Layout.codes "hhfbhbfbffffff").map Code.size).sum = 41 := by decide +kernel
theorem DeadFish.sized (v : Version) (x : DeadFish) : Sized (x.layout v) (x.size v) := by
  unfold DeadFish.layout DeadFish.size
  apply Sized.cast
  · sizes
  · simp only [fmtSize4] <;> omega
instance : HasSize DeadFish.layout DeadFish.size := ⟨DeadFish.sized⟩
theorem DeadFish.sum_size (v : Version) (l : List DeadFish) : (l.map (DeadFish.size v)).sum = 41 * l.length := sum_map_const 41 l
theorem DeadFish.size_const (v : Version) (x : DeadFish) : x.size v = 41 := rfl

theorem Bird.sized (v : Version) (x : Bird) : Sized (x.layout v) (x.size v) := by
  unfold Bird.layout Bird.size
  apply Sized.cast
  · sizes
  · split <;> omega
instance : HasSize Bird.layout Bird.size := ⟨Bird.sized⟩

theorem fmtSize5 : ((Layout.codes "hh").map Code.size).sum = 4 := by decide +kernel
theorem AttackOrArmor.sized (v : Version) (x : AttackOrArmor) : Sized (x.layout v) (x.size v) := by
  unfold AttackOrArmor.layout AttackOrArmor.size
  apply Sized.cast
  · sizes
  · simp only [fmtSize5] <;> omega
instance : HasSize AttackOrArmor.layout AttackOrArmor.size := ⟨AttackOrArmor.sized⟩
theorem AttackOrArmor.sum_size (v : Version) (l : List AttackOrArmor) : (l.map (AttackOrArmor.size v)).sum = 4 * l.length := sum_map_const 4 l
theorem AttackOrArmor.size_const (v : Version) (x : AttackOrArmor) : x.size v = 4 := rfl

theorem Type50.sized (v : Version) (x : Type50) : Sized (x.layout v) (x.size v) := by
  unfold Type50.layout Type50.size
  apply Sized.cast
  · sizes
  · simp only [AttackOrArmor.sum_size, AttackOrArmor.size_const] <;> split <;> omega
instance : HasSize Type50.layout Type50.size := ⟨Type50.sized⟩

theorem fmtSize6 : ((Layout.codes "bbbbbf").map Code.size).sum = 9 := by decide +kernel
theorem Projectile.sized (v : Version) (x : Projectile) : Sized (x.layout v) (x.size v) := by
  unfold Projectile.layout Projectile.size
  apply Sized.cast
  · sizes
  · simp only [fmtSize6] <;> omega
instance : HasSize Projectile.layout Projectile.size := ⟨Projectile.sized⟩
theorem Projectile.sum_size (v : Version) (l : List Projectile) : (l.map (Projectile.size v)).sum = 9 * l.length := sum_map_const 9 l
theorem Projectile.size_const (v : Version) (x : Projectile) : x.size v = 9 := rfl

theorem fmtSize7 : ((Layout.codes "hhh").map Code.size).sum = 6 := by decide +kernel
theorem ResourceCost.sized (v : Version) (x : ResourceCost) : Sized (x.layout v) (x.size v) := by
  unfold ResourceCost.layout ResourceCost.size
  apply Sized.cast
  · sizes
  · simp only [fmtSize7] <;> omega
instance : HasSize ResourceCost.layout ResourceCost.size := ⟨ResourceCost.sized⟩
theorem ResourceCost.sum_size (v : Version) (l : List ResourceCost) : (l.map (ResourceCost.size v)).sum = 6 * l.length := sum_map_const 6 l
theorem ResourceCost.size_const (v : Version) (x : ResourceCost) : x.size v = 6 := rfl

theorem fmtSize8 : ((Layout.codes "hhbl").map Code.size).sum = 9 := by decide +kernel
theorem TrainLocation.sized (v : Version) (x : TrainLocation) : Sized (x.layout v) (x.size v) := by
  unfold TrainLocation.layout TrainLocation.size
  by_cases h : 88 ≤ v.num
  · simp only [if_pos h]; exact Sized.block _ (by simp only [fmtSize8, fmtSize3])
  · simp only [if_neg h]; exact Sized.block _ (by simp only [fmtSize8, fmtSize3])
instance : HasSize TrainLocation.layout TrainLocation.size := ⟨TrainLocation.sized⟩

theorem fmtSize9 : ((Layout.codes "ffbblhhhhffhhhlbfhllhffffbfffllbh").map Code.size).sum = 97 := by decide +kernel
theorem fmtSize10 : ((Layout.codes "hhbffbblhhhhffhhhlbfhllhffffbfffllbh").map Code.size).sum = 102 := by decide +kernel
theorem fmtSize11 : ((Layout.codes "hhbffbblhhhffhhffffbfffllbh").map Code.size).sum = 77 := by decide +kernel
theorem Creatable.sized (v : Version) (x : Creatable) : Sized (x.layout v) (x.size v) := by
  unfold Creatable.layout Creatable.size
  refine Sized.append ((Sized.classesI _).cast (ResourceCost.sum_size v _)) ?_
  refine Sized.ite (fun h88 => ?_) (fun h88 => ?_)
  · apply Sized.cast
    · sizes
    · have : (x.train_locations.map (TrainLocation.size v)).sum = 9 * x.train_locations.length := by
        rw [← sum_map_const]; congr 2; funext y; simp only [TrainLocation.size, if_pos h88]
      simp only [fmtSize9, fmtSize10, fmtSize11, ResourceCost.sum_size, ResourceCost.size_const, this]; omega
  · cases x.train_locations with
    | nil => intro h; rw [causes_requires] at h; exact h.elim
    | cons t ts =>
      exact Sized.ite (fun _ => Sized.block _ (by simp only [fmtSize9, fmtSize10, fmtSize11, ResourceCost.sum_size, ResourceCost.size_const])) (fun _ => Sized.block _ (by simp only [fmtSize9, fmtSize10, fmtSize11, ResourceCost.sum_size, ResourceCost.size_const]))
instance : HasSize Creatable.layout Creatable.size := ⟨Creatable.sized⟩

theorem fmtSize12 : ((Layout.codes "hff").map Code.size).sum = 10 := by decide +kernel
theorem BuildingAnnex.sized (v : Version) (x : BuildingAnnex) : Sized (x.layout v) (x.size v) := by
  unfold BuildingAnnex.layout BuildingAnnex.size
  apply Sized.cast
  · sizes
  · simp only [fmtSize12] <;> omega
instance : HasSize BuildingAnnex.layout BuildingAnnex.size := ⟨BuildingAnnex.sized⟩
theorem BuildingAnnex.sum_size (v : Version) (l : List BuildingAnnex) : (l.map (BuildingAnnex.size v)).sum = 10 * l.length := sum_map_const 10 l
theorem BuildingAnnex.size_const (v : Version) (x : BuildingAnnex) : x.size v = 10 := rfl

theorem fmtSize13 : ((Layout.codes "hhhhhhbhbhhhhb").map Code.size).sum = 25 := by decide +kernel
theorem fmtSize14 : ((Layout.codes "hhhhllbffhbbbbbb").map Code.size).sum = 33 := by decide +kernel
theorem Building.sized (v : Version) (x : Building) : Sized (x.layout v) (x.size v) := by
  unfold Building.layout Building.size
  apply Sized.cast
  · sizes
  · simp only [fmtSize13, fmtSize14, BuildingAnnex.sum_size, BuildingAnnex.size_const] <;> omega
instance : HasSize Building.layout Building.size := ⟨Building.sized⟩

theorem fmtSize15 : ((Layout.codes "bhllhhhhhbhfbfffhhhhbbhbhbbhhhhffbbhbhfbbbbbfbllbbbbbbbbbhbbfffll").map Code.size).sum = 136 := by decide +kernel
theorem fmtSize16 : ((Layout.codes "bhllhhhhhbhfbfffhhhhbbhbhbbhhhhffbbhbhfbbbbbfblllbbbbbbbbbhbbfffll").map Code.size).sum = 140 := by decide +kernel
theorem Unit.sized (v : Version) (x : Unit) : Sized (x.layout v) (x.size v) := by
  unfold Unit.layout Unit.size
  apply Sized.cast
  · sizes
  · have hb : ((Layout.codes (if 88 ≤ v.num then "bhllhhhhhbhfbfffhhhhbbhbhbbhhhhffbbhbhfbbbbbfbllbbbbbbbbbhbbfffll" else "bhllhhhhhbhfbfffhhhhbbhbhbbhhhhffbbhbhfbbbbbfblllbbbbbbbbbhbbfffll")).map Code.size).sum = if 88 ≤ v.num then 136 else 140 := by
      split <;> simp only [fmtSize15, fmtSize16, ResourceStorage.sum_size, ResourceStorage.size_const, DamageGraphic.sum_size, DamageGraphic.size_const, DeadFish.sum_size, DeadFish.size_const, Projectile.sum_size, Projectile.size_const]
    have h1 : ∀ {c : Prop} [Decidable c] (o : Option DeadFish), partSize c (DeadFish.size v) o = partSize c (fun _ => 41) o := fun _ => rfl
    have h2 : ∀ {c : Prop} [Decidable c] (o : Option Projectile), partSize c (Projectile.size v) o = partSize c (fun _ => 9) o := fun _ => rfl
    simp only [fmtSize15, fmtSize16, ResourceStorage.sum_size, ResourceStorage.size_const, DamageGraphic.sum_size, DamageGraphic.size_const, DeadFish.sum_size, DeadFish.size_const, Projectile.sum_size, Projectile.size_const, hb, h1, h2]
    generalize partSize (x.type ≠ 90 ∧ 20 ≤ x.type) (fun _ => 4) x.speed = p0
    generalize partSize (x.type ≠ 90 ∧ 30 ≤ x.type) (fun _ => 41) x.dead_fish = p1
    generalize partSize (x.type ≠ 90 ∧ 40 ≤ x.type) (Bird.size v) x.bird = p2
    generalize partSize (x.type ≠ 90 ∧ 50 ≤ x.type) (Type50.size v) x.type_50 = p3
    generalize partSize (x.type = 60) (fun _ => 9) x.projectile = p4
    generalize partSize (x.type ≠ 90 ∧ 70 ≤ x.type) (Creatable.size v) x.creatable = p5
    generalize partSize (x.type = 80) (Building.size v) x.building = p6
    clear hb h1 h2
    by_cases h : 88 ≤ v.num
    · simp only [if_pos h]; omega
    · simp only [if_neg h]; omega
instance : HasSize Unit.layout Unit.size := ⟨Unit.sized⟩

theorem Civ.sized (v : Version) (x : Civ) : Sized (x.layout v) (x.size v) := by
  unfold Civ.layout Civ.size
  apply Sized.cast
  · sizes
  · omega
instance : HasSize Civ.layout Civ.size := ⟨Civ.sized⟩

set_option maxRecDepth 4000 in
theorem DatFile.sizedAt (v : Version) (x : DatFile) : Sized (x.layoutAt v) (x.size v) := by
  unfold DatFile.layoutAt DatFile.size
  have ht : Sized x.terrainItems 2 := by
    unfold DatFile.terrainItems
    split
    · exact Sized.item (.idle 2)
    · exact Sized.item (.count 2 true _)
  apply Sized.cast
  · sizes <;> first | exact ht | exact Sized.item _
  · simp only [PlayerColour.sum_size, PlayerColour.size_const, Item.size, if_neg (show ¬ (8 : Nat) = 0 by decide)]; omega

namespace RecordClass

theorem writes (c : RecordClass) (v : Version) (x : c.Obj) : Writes (c.toBytes v x) (c.layout v x) := by
  cases c with
  | EffectCommand => exact Genie.EffectCommand.writes v x
  | Effect => exact Genie.Effect.writes v x
  | SoundItem => exact Genie.SoundItem.writes v x
  | Sound => exact Genie.Sound.writes v x
  | PlayerColour => exact Genie.PlayerColour.writes v x
  | GraphicDelta => exact Genie.GraphicDelta.writes v x
  | GraphicAngleSound => exact Genie.GraphicAngleSound.writes v x
  | Graphic => exact Genie.Graphic.writes v x
  | TerrainPassGraphic => exact Genie.TerrainPassGraphic.writes v x
  | FrameData => exact Genie.FrameData.writes v x
  | Terrain => exact Genie.Terrain.writes v x
  | TileSize => exact Genie.TileSize.writes v x
  | TerrainBlock => exact Genie.TerrainBlock.writes v x
  | MapUnit => exact Genie.MapUnit.writes v x
  | MapTerrain => exact Genie.MapTerrain.writes v x
  | MapLand => exact Genie.MapLand.writes v x
  | MapElevation => exact Genie.MapElevation.writes v x
  | MapInfo => exact Genie.MapInfo.writes v x
  | RandomMaps => exact Genie.RandomMaps.writes v x
  | ResearchResourceCost => exact Genie.ResearchResourceCost.writes v x
  | ResearchLocation => exact Genie.ResearchLocation.writes v x
  | Tech => exact Genie.Tech.writes v x
  | Common => exact Genie.Common.writes v x
  | TechTreeAge => exact Genie.TechTreeAge.writes v x
  | BuildingConnection => exact Genie.BuildingConnection.writes v x
  | UnitConnection => exact Genie.UnitConnection.writes v x
  | ResearchConnection => exact Genie.ResearchConnection.writes v x
  | TechTree => exact Genie.TechTree.writes v x
  | ResourceStorage => exact Genie.ResourceStorage.writes v x
  | DamageGraphic => exact Genie.DamageGraphic.writes v x
  | DeadFish => exact Genie.DeadFish.writes v x
  | Task => exact Genie.Task.writes v x
  | Bird => exact Genie.Bird.writes v x
  | AttackOrArmor => exact Genie.AttackOrArmor.writes v x
  | Type50 => exact Genie.Type50.writes v x
  | Projectile => exact Genie.Projectile.writes v x
  | ResourceCost => exact Genie.ResourceCost.writes v x
  | TrainLocation => exact Genie.TrainLocation.writes v x
  | Creatable => exact Genie.Creatable.writes v x
  | BuildingAnnex => exact Genie.BuildingAnnex.writes v x
  | Building => exact Genie.Building.writes v x
  | Unit => exact Genie.Unit.writes v x
  | UnitHeaders => exact Genie.UnitHeaders.writes v x
  | Civ => exact Genie.Civ.writes v x
  | TerrainRestriction n => exact Genie.TerrainRestriction.writes v x

theorem sized (c : RecordClass) (v : Version) (x : c.Obj) : Sized (c.layout v x) (c.size v x) := by
  cases c with
  | EffectCommand => exact Genie.EffectCommand.sized v x
  | Effect => exact Genie.Effect.sized v x
  | SoundItem => exact Genie.SoundItem.sized v x
  | Sound => exact Genie.Sound.sized v x
  | PlayerColour => exact Genie.PlayerColour.sized v x
  | GraphicDelta => exact Genie.GraphicDelta.sized v x
  | GraphicAngleSound => exact Genie.GraphicAngleSound.sized v x
  | Graphic => exact Genie.Graphic.sized v x
  | TerrainPassGraphic => exact Genie.TerrainPassGraphic.sized v x
  | FrameData => exact Genie.FrameData.sized v x
  | Terrain => exact Genie.Terrain.sized v x
  | TileSize => exact Genie.TileSize.sized v x
  | TerrainBlock => exact Genie.TerrainBlock.sized v x
  | MapUnit => exact Genie.MapUnit.sized v x
  | MapTerrain => exact Genie.MapTerrain.sized v x
  | MapLand => exact Genie.MapLand.sized v x
  | MapElevation => exact Genie.MapElevation.sized v x
  | MapInfo => exact Genie.MapInfo.sized v x
  | RandomMaps => exact Genie.RandomMaps.sized v x
  | ResearchResourceCost => exact Genie.ResearchResourceCost.sized v x
  | ResearchLocation => exact Genie.ResearchLocation.sized v x
  | Tech => exact Genie.Tech.sized v x
  | Common => exact Genie.Common.sized v x
  | TechTreeAge => exact Genie.TechTreeAge.sized v x
  | BuildingConnection => exact Genie.BuildingConnection.sized v x
  | UnitConnection => exact Genie.UnitConnection.sized v x
  | ResearchConnection => exact Genie.ResearchConnection.sized v x
  | TechTree => exact Genie.TechTree.sized v x
  | ResourceStorage => exact Genie.ResourceStorage.sized v x
  | DamageGraphic => exact Genie.DamageGraphic.sized v x
  | DeadFish => exact Genie.DeadFish.sized v x
  | Task => exact Genie.Task.sized v x
  | Bird => exact Genie.Bird.sized v x
  | AttackOrArmor => exact Genie.AttackOrArmor.sized v x
  | Type50 => exact Genie.Type50.sized v x
  | Projectile => exact Genie.Projectile.sized v x
  | ResourceCost => exact Genie.ResourceCost.sized v x
  | TrainLocation => exact Genie.TrainLocation.sized v x
  | Creatable => exact Genie.Creatable.sized v x
  | BuildingAnnex => exact Genie.BuildingAnnex.sized v x
  | Building => exact Genie.Building.sized v x
  | Unit => exact Genie.Unit.sized v x
  | UnitHeaders => exact Genie.UnitHeaders.sized v x
  | Civ => exact Genie.Civ.sized v x
  | TerrainRestriction n => exact Genie.TerrainRestriction.sized v x

end RecordClass
end Genie
