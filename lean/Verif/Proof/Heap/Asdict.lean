import Verif.Spec.ObjectTrees
import Verif.Model.HeapPrograms
import Verif.Model.Asdict
/-! # `dataclasses.asdict` of an object is the tree of `Verif/Model/Asdict.lean` (generated by `tools/gen_types.py`) -/

set_option linter.unusedSimpArgs false

namespace Genie

theorem asdictItems_map (l : List ObjTree) : ObjTree.asdictItems l = l.map ObjTree.asdict := by
  induction l with
  | nil => rfl
  | cons t l ih => simp only [ObjTree.asdictItems, ih, List.map_cons]

theorem asdict_list_map {f : α → ObjTree} {g : α → PyTree} (h : ∀ x, (f x).asdict = g x) (l : List α) :
    (ObjTree.list (l.map f)).asdict = .list (l.map g) := by
  simp only [ObjTree.asdict, asdictItems_map, List.map_map]
  congr 1
  exact List.map_congr_left fun x _ => h x

theorem asdict_tuple_map {f : α → ObjTree} {g : α → PyTree} (h : ∀ x, (f x).asdict = g x) (l : List α) :
    (ObjTree.tuple (l.map f)).asdict = .list (l.map g) := by
  simp only [ObjTree.asdict, asdictItems_map, List.map_map]
  congr 1
  exact List.map_congr_left fun x _ => h x

theorem asdict_opt {f : α → ObjTree} {g : α → PyTree} (h : ∀ x, (f x).asdict = g x) (o : Option α) :
    (optObj f o).asdict = optTree g o := by
  cases o with
  | none => rfl
  | some x => exact h x

theorem asdict_obj (c : PyStr) (ts : List (PyStr × ObjTree)) : (ObjTree.obj c ts).asdict = .dict (ObjTree.asdictAttrs ts) := by
  rw [ObjTree.asdict]
theorem asdict_int (i : Int) : (ObjTree.int i).asdict = .int i := by rw [ObjTree.asdict]
theorem asdict_float (x : PyFloat) : (ObjTree.float x).asdict = .float x := by rw [ObjTree.asdict]
theorem asdict_str (s : PyStr) : (ObjTree.str s).asdict = .str s := by rw [ObjTree.asdict]

theorem asdict_invulnerability (old : Bool) (x : PyFloat) : (invulnerabilityObj old x).asdict = invulnerabilityTree old x := by
  unfold invulnerabilityObj invulnerabilityTree
  split <;> rfl

theorem EffectCommand.object_asdict (x : EffectCommand) : (EffectCommand.object x).asdict = EffectCommand.asdict x := by
  unfold EffectCommand.object EffectCommand.asdict
  simp only [asdict_obj, ObjTree.asdictAttrs, asdict_int, asdict_float, asdict_str]

theorem Effect.object_asdict (x : Effect) : (Effect.object x).asdict = Effect.asdict x := by
  unfold Effect.object Effect.asdict
  simp only [asdict_obj, ObjTree.asdictAttrs, asdict_int, asdict_float, asdict_str, asdict_list_map (EffectCommand.object_asdict)]

theorem SoundItem.object_asdict (x : SoundItem) : (SoundItem.object x).asdict = SoundItem.asdict x := by
  unfold SoundItem.object SoundItem.asdict
  simp only [asdict_obj, ObjTree.asdictAttrs, asdict_int, asdict_float, asdict_str]

theorem Sound.object_asdict (x : Sound) : (Sound.object x).asdict = Sound.asdict x := by
  unfold Sound.object Sound.asdict
  simp only [asdict_obj, ObjTree.asdictAttrs, asdict_int, asdict_float, asdict_str, asdict_list_map (SoundItem.object_asdict)]

theorem PlayerColour.object_asdict (x : PlayerColour) : (PlayerColour.object x).asdict = PlayerColour.asdict x := by
  unfold PlayerColour.object PlayerColour.asdict
  simp only [asdict_obj, ObjTree.asdictAttrs, asdict_int, asdict_float, asdict_str]

theorem GraphicDelta.object_asdict (x : GraphicDelta) : (GraphicDelta.object x).asdict = GraphicDelta.asdict x := by
  unfold GraphicDelta.object GraphicDelta.asdict
  simp only [asdict_obj, ObjTree.asdictAttrs, asdict_int, asdict_float, asdict_str]

theorem GraphicAngleSound.object_asdict (x : GraphicAngleSound) : (GraphicAngleSound.object x).asdict = GraphicAngleSound.asdict x := by
  unfold GraphicAngleSound.object GraphicAngleSound.asdict
  simp only [asdict_obj, ObjTree.asdictAttrs, asdict_int, asdict_float, asdict_str]

theorem Graphic.object_asdict (x : Graphic) : (Graphic.object x).asdict = Graphic.asdict x := by
  unfold Graphic.object Graphic.asdict
  simp only [asdict_obj, ObjTree.asdictAttrs, asdict_int, asdict_float, asdict_str, asdict_tuple_map (asdict_int), asdict_list_map (GraphicDelta.object_asdict), asdict_list_map (GraphicAngleSound.object_asdict)]

theorem TerrainPassGraphic.object_asdict (x : TerrainPassGraphic) : (TerrainPassGraphic.object x).asdict = TerrainPassGraphic.asdict x := by
  unfold TerrainPassGraphic.object TerrainPassGraphic.asdict
  simp only [asdict_obj, ObjTree.asdictAttrs, asdict_int, asdict_float, asdict_str]

theorem TerrainRestriction.object_asdict (x : TerrainRestriction) : (TerrainRestriction.object x).asdict = TerrainRestriction.asdict x := by
  unfold TerrainRestriction.object TerrainRestriction.asdict
  simp only [asdict_obj, ObjTree.asdictAttrs, asdict_int, asdict_float, asdict_str, asdict_list_map (asdict_float), asdict_list_map (TerrainPassGraphic.object_asdict)]

theorem FrameData.object_asdict (x : FrameData) : (FrameData.object x).asdict = FrameData.asdict x := by
  unfold FrameData.object FrameData.asdict
  simp only [asdict_obj, ObjTree.asdictAttrs, asdict_int, asdict_float, asdict_str]

theorem Terrain.object_asdict (x : Terrain) : (Terrain.object x).asdict = Terrain.asdict x := by
  unfold Terrain.object Terrain.asdict
  simp only [asdict_obj, ObjTree.asdictAttrs, asdict_int, asdict_float, asdict_str, asdict_tuple_map (asdict_int), asdict_list_map (FrameData.object_asdict), asdict_list_map (asdict_int)]

theorem TileSize.object_asdict (x : TileSize) : (TileSize.object x).asdict = TileSize.asdict x := by
  unfold TileSize.object TileSize.asdict
  simp only [asdict_obj, ObjTree.asdictAttrs, asdict_int, asdict_float, asdict_str]

theorem TerrainBlock.object_asdict (x : TerrainBlock) : (TerrainBlock.object x).asdict = TerrainBlock.asdict x := by
  unfold TerrainBlock.object TerrainBlock.asdict
  simp only [asdict_obj, ObjTree.asdictAttrs, asdict_int, asdict_float, asdict_str, asdict_list_map (TileSize.object_asdict), asdict_list_map (Terrain.object_asdict)]

theorem MapUnit.object_asdict (x : MapUnit) : (MapUnit.object x).asdict = MapUnit.asdict x := by
  unfold MapUnit.object MapUnit.asdict
  simp only [asdict_obj, ObjTree.asdictAttrs, asdict_int, asdict_float, asdict_str]

theorem MapTerrain.object_asdict (x : MapTerrain) : (MapTerrain.object x).asdict = MapTerrain.asdict x := by
  unfold MapTerrain.object MapTerrain.asdict
  simp only [asdict_obj, ObjTree.asdictAttrs, asdict_int, asdict_float, asdict_str]

theorem MapLand.object_asdict (x : MapLand) : (MapLand.object x).asdict = MapLand.asdict x := by
  unfold MapLand.object MapLand.asdict
  simp only [asdict_obj, ObjTree.asdictAttrs, asdict_int, asdict_float, asdict_str]

theorem MapElevation.object_asdict (x : MapElevation) : (MapElevation.object x).asdict = MapElevation.asdict x := by
  unfold MapElevation.object MapElevation.asdict
  simp only [asdict_obj, ObjTree.asdictAttrs, asdict_int, asdict_float, asdict_str]

theorem MapInfo.object_asdict (x : MapInfo) : (MapInfo.object x).asdict = MapInfo.asdict x := by
  unfold MapInfo.object MapInfo.asdict
  simp only [asdict_obj, ObjTree.asdictAttrs, asdict_int, asdict_float, asdict_str, asdict_list_map (MapLand.object_asdict), asdict_list_map (MapTerrain.object_asdict), asdict_list_map (MapUnit.object_asdict), asdict_list_map (MapElevation.object_asdict)]

theorem RandomMaps.object_asdict (x : RandomMaps) : (RandomMaps.object x).asdict = RandomMaps.asdict x := by
  unfold RandomMaps.object RandomMaps.asdict
  simp only [asdict_obj, ObjTree.asdictAttrs, asdict_int, asdict_float, asdict_str, asdict_list_map (MapInfo.object_asdict)]

theorem ResearchResourceCost.object_asdict (x : ResearchResourceCost) : (ResearchResourceCost.object x).asdict = ResearchResourceCost.asdict x := by
  unfold ResearchResourceCost.object ResearchResourceCost.asdict
  simp only [asdict_obj, ObjTree.asdictAttrs, asdict_int, asdict_float, asdict_str]

theorem ResearchLocation.object_asdict (x : ResearchLocation) : (ResearchLocation.object x).asdict = ResearchLocation.asdict x := by
  unfold ResearchLocation.object ResearchLocation.asdict
  simp only [asdict_obj, ObjTree.asdictAttrs, asdict_int, asdict_float, asdict_str]

theorem Tech.object_asdict (x : Tech) : (Tech.object x).asdict = Tech.asdict x := by
  unfold Tech.object Tech.asdict
  simp only [asdict_obj, ObjTree.asdictAttrs, asdict_int, asdict_float, asdict_str, asdict_tuple_map (asdict_int), asdict_tuple_map (ResearchResourceCost.object_asdict), asdict_list_map (ResearchLocation.object_asdict)]

theorem Common.object_asdict (x : Common) : (Common.object x).asdict = Common.asdict x := by
  unfold Common.object Common.asdict
  simp only [asdict_obj, ObjTree.asdictAttrs, asdict_int, asdict_float, asdict_str, asdict_tuple_map (asdict_int)]

theorem TechTreeAge.object_asdict (x : TechTreeAge) : (TechTreeAge.object x).asdict = TechTreeAge.asdict x := by
  unfold TechTreeAge.object TechTreeAge.asdict
  simp only [asdict_obj, ObjTree.asdictAttrs, asdict_int, asdict_float, asdict_str, asdict_list_map (asdict_int), Common.object_asdict, asdict_tuple_map (asdict_int)]

theorem BuildingConnection.object_asdict (x : BuildingConnection) : (BuildingConnection.object x).asdict = BuildingConnection.asdict x := by
  unfold BuildingConnection.object BuildingConnection.asdict
  simp only [asdict_obj, ObjTree.asdictAttrs, asdict_int, asdict_float, asdict_str, asdict_list_map (asdict_int), Common.object_asdict, asdict_tuple_map (asdict_int)]

theorem UnitConnection.object_asdict (x : UnitConnection) : (UnitConnection.object x).asdict = UnitConnection.asdict x := by
  unfold UnitConnection.object UnitConnection.asdict
  simp only [asdict_obj, ObjTree.asdictAttrs, asdict_int, asdict_float, asdict_str, Common.object_asdict, asdict_list_map (asdict_int)]

theorem ResearchConnection.object_asdict (x : ResearchConnection) : (ResearchConnection.object x).asdict = ResearchConnection.asdict x := by
  unfold ResearchConnection.object ResearchConnection.asdict
  simp only [asdict_obj, ObjTree.asdictAttrs, asdict_int, asdict_float, asdict_str, asdict_list_map (asdict_int), Common.object_asdict]

theorem TechTree.object_asdict (x : TechTree) : (TechTree.object x).asdict = TechTree.asdict x := by
  unfold TechTree.object TechTree.asdict
  simp only [asdict_obj, ObjTree.asdictAttrs, asdict_int, asdict_float, asdict_str, asdict_list_map (TechTreeAge.object_asdict), asdict_list_map (BuildingConnection.object_asdict), asdict_list_map (UnitConnection.object_asdict), asdict_list_map (ResearchConnection.object_asdict)]

theorem Task.object_asdict (x : Task) : (Task.object x).asdict = Task.asdict x := by
  unfold Task.object Task.asdict
  simp only [asdict_obj, ObjTree.asdictAttrs, asdict_int, asdict_float, asdict_str]

theorem ResourceStorage.object_asdict (x : ResourceStorage) : (ResourceStorage.object x).asdict = ResourceStorage.asdict x := by
  unfold ResourceStorage.object ResourceStorage.asdict
  simp only [asdict_obj, ObjTree.asdictAttrs, asdict_int, asdict_float, asdict_str]

theorem DamageGraphic.object_asdict (x : DamageGraphic) : (DamageGraphic.object x).asdict = DamageGraphic.asdict x := by
  unfold DamageGraphic.object DamageGraphic.asdict
  simp only [asdict_obj, ObjTree.asdictAttrs, asdict_int, asdict_float, asdict_str]

theorem DeadFish.object_asdict (x : DeadFish) : (DeadFish.object x).asdict = DeadFish.asdict x := by
  unfold DeadFish.object DeadFish.asdict
  simp only [asdict_obj, ObjTree.asdictAttrs, asdict_int, asdict_float, asdict_str]

theorem Bird.object_asdict (x : Bird) : (Bird.object x).asdict = Bird.asdict x := by
  unfold Bird.object Bird.asdict
  simp only [asdict_obj, ObjTree.asdictAttrs, asdict_int, asdict_float, asdict_str, asdict_list_map (asdict_int), asdict_list_map (Task.object_asdict)]

theorem AttackOrArmor.object_asdict (x : AttackOrArmor) : (AttackOrArmor.object x).asdict = AttackOrArmor.asdict x := by
  unfold AttackOrArmor.object AttackOrArmor.asdict
  simp only [asdict_obj, ObjTree.asdictAttrs, asdict_int, asdict_float, asdict_str]

theorem Type50.object_asdict (x : Type50) : (Type50.object x).asdict = Type50.asdict x := by
  unfold Type50.object Type50.asdict
  simp only [asdict_obj, ObjTree.asdictAttrs, asdict_int, asdict_float, asdict_str, asdict_list_map (AttackOrArmor.object_asdict), asdict_tuple_map (asdict_float)]

theorem Projectile.object_asdict (x : Projectile) : (Projectile.object x).asdict = Projectile.asdict x := by
  unfold Projectile.object Projectile.asdict
  simp only [asdict_obj, ObjTree.asdictAttrs, asdict_int, asdict_float, asdict_str]

theorem ResourceCost.object_asdict (x : ResourceCost) : (ResourceCost.object x).asdict = ResourceCost.asdict x := by
  unfold ResourceCost.object ResourceCost.asdict
  simp only [asdict_obj, ObjTree.asdictAttrs, asdict_int, asdict_float, asdict_str]

theorem TrainLocation.object_asdict (x : TrainLocation) : (TrainLocation.object x).asdict = TrainLocation.asdict x := by
  unfold TrainLocation.object TrainLocation.asdict
  simp only [asdict_obj, ObjTree.asdictAttrs, asdict_int, asdict_float, asdict_str]

theorem Creatable.object_asdict (old : Bool) (x : Creatable) : (Creatable.object old x).asdict = Creatable.asdict old x := by
  unfold Creatable.object Creatable.asdict
  simp only [asdict_obj, ObjTree.asdictAttrs, asdict_int, asdict_float, asdict_str, asdict_tuple_map (ResourceCost.object_asdict), asdict_list_map (TrainLocation.object_asdict), asdict_invulnerability, asdict_tuple_map (asdict_float)]

theorem BuildingAnnex.object_asdict (x : BuildingAnnex) : (BuildingAnnex.object x).asdict = BuildingAnnex.asdict x := by
  unfold BuildingAnnex.object BuildingAnnex.asdict
  simp only [asdict_obj, ObjTree.asdictAttrs, asdict_int, asdict_float, asdict_str]

theorem Building.object_asdict (x : Building) : (Building.object x).asdict = Building.asdict x := by
  unfold Building.object Building.asdict
  simp only [asdict_obj, ObjTree.asdictAttrs, asdict_int, asdict_float, asdict_str, asdict_tuple_map (BuildingAnnex.object_asdict), asdict_tuple_map (asdict_int)]

theorem Unit.object_asdict (old : Bool) (x : Unit) : (Unit.object old x).asdict = Unit.asdict old x := by
  unfold Unit.object Unit.asdict
  simp only [asdict_obj, ObjTree.asdictAttrs, asdict_int, asdict_float, asdict_str, asdict_tuple_map (asdict_int), asdict_tuple_map (asdict_float), asdict_tuple_map (ResourceStorage.object_asdict), asdict_list_map (DamageGraphic.object_asdict), asdict_opt (asdict_float), asdict_opt (DeadFish.object_asdict), asdict_opt (Bird.object_asdict), asdict_opt (Type50.object_asdict), asdict_opt (Projectile.object_asdict), asdict_opt (Creatable.object_asdict old), asdict_opt (Building.object_asdict)]

theorem UnitHeaders.object_asdict (x : UnitHeaders) : (UnitHeaders.object x).asdict = UnitHeaders.asdict x := by
  unfold UnitHeaders.object UnitHeaders.asdict
  simp only [asdict_obj, ObjTree.asdictAttrs, asdict_int, asdict_float, asdict_str, asdict_opt (asdict_list_map (Task.object_asdict))]

theorem Civ.object_asdict (old : Bool) (x : Civ) : (Civ.object old x).asdict = Civ.asdict old x := by
  unfold Civ.object Civ.asdict
  simp only [asdict_obj, ObjTree.asdictAttrs, asdict_int, asdict_float, asdict_str, asdict_list_map (asdict_float), asdict_list_map (asdict_opt (Unit.object_asdict old))]

theorem DatFile.object_asdict (old : Bool) (x : DatFile) : (DatFile.object old x).asdict = DatFile.asdict old x := by
  unfold DatFile.object DatFile.asdict
  simp only [asdict_obj, ObjTree.asdictAttrs, asdict_int, asdict_float, asdict_str, asdict_list_map (asdict_int), asdict_list_map (TerrainRestriction.object_asdict), asdict_list_map (PlayerColour.object_asdict), asdict_list_map (Sound.object_asdict), asdict_list_map (asdict_opt (Graphic.object_asdict)), TerrainBlock.object_asdict, RandomMaps.object_asdict, asdict_list_map (Effect.object_asdict), asdict_list_map (UnitHeaders.object_asdict), asdict_list_map (Civ.object_asdict old), asdict_list_map (Tech.object_asdict), TechTree.object_asdict]

end Genie
