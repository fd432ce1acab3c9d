import Verif.Proof.Heap.Raises
/-!
# Which exceptions `to_bytes` raises, on objects of any type: every writer
-/

namespace Genie
open W

/-- Go through a writer, expression by expression. -/
local macro "only" hS:ident hr:ident : tactic => `(tactic|
  repeat' first
    | with_reducible exact attr_only $hS _
    | with_reducible exact joinB_nil_only
    | with_reducible apply joinB_cons_only
    | with_reducible apply arg_only
    | with_reducible exact args_nil_only
    | with_reducible apply args_cons_only
    | with_reducible apply int16_only $hS
    | with_reducible apply int32_only $hS
    | with_reducible apply int8_only $hS
    | with_reducible apply nat_only
    | with_reducible apply len_only $hS
    | with_reducible apply classArray_only $hS $hr
    | with_reducible apply cls_only $hS $hr
    | with_reducible apply float_only $hS
    | with_reducible apply debugString_only $hS
    | with_reducible apply string_only $hS
    | with_reducible apply pack_only $hS
    | with_reducible apply int8Array_only $hS
    | with_reducible apply int16Array_only $hS
    | with_reducible apply int32Array_only $hS
    | with_reducible apply floatArray_only $hS
    | with_reducible apply pointers_only $hS
    | with_reducible apply int16If_only $hS
    | with_reducible apply iter_only $hS
    | with_reducible apply attrOf_only $hS
    | with_reducible apply item_only $hS
    | with_reducible apply when_cons_only
    | with_reducible apply when_nil_only
    | with_reducible apply neInt_only
    | with_reducible apply geInt_only $hS
    | with_reducible apply eqInt_only
    | with_reducible apply map_only
    | with_reducible apply ifNotNone_only
    | with_reducible apply version_only $hS
    | with_reducible exact only_ok _
    | with_reducible exact only_error ($hS _ (by simp [PyErr.OfWriting]))
    | with_reducible apply ite_only
    | (with_reducible refine bind_only ?_ (fun _ => ?_))
    | with_reducible dsimp only)

variable {H : Heap} {r : Rec} {S : PyErr → Prop}

theorem EffectCommand.write_only (hS : ∀ e, PyErr.OfWriting e → S e) {v : HVal} (hr : ∀ x ver, Below H v x → Only S (r x ver)) (ver : Version) :
    Only S (EffectCommand.write H r v ver) := by
  unfold EffectCommand.write
  only hS hr

theorem Effect.write_only (hS : ∀ e, PyErr.OfWriting e → S e) {v : HVal} (hr : ∀ x ver, Below H v x → Only S (r x ver)) (ver : Version) :
    Only S (Effect.write H r v ver) := by
  unfold Effect.write
  only hS hr

theorem SoundItem.write_only (hS : ∀ e, PyErr.OfWriting e → S e) {v : HVal} (hr : ∀ x ver, Below H v x → Only S (r x ver)) (ver : Version) :
    Only S (SoundItem.write H r v ver) := by
  unfold SoundItem.write
  only hS hr

theorem Sound.write_only (hS : ∀ e, PyErr.OfWriting e → S e) {v : HVal} (hr : ∀ x ver, Below H v x → Only S (r x ver)) (ver : Version) :
    Only S (Sound.write H r v ver) := by
  unfold Sound.write
  only hS hr

theorem PlayerColour.write_only (hS : ∀ e, PyErr.OfWriting e → S e) {v : HVal} (hr : ∀ x ver, Below H v x → Only S (r x ver)) (ver : Version) :
    Only S (PlayerColour.write H r v ver) := by
  unfold PlayerColour.write
  only hS hr

theorem GraphicDelta.write_only (hS : ∀ e, PyErr.OfWriting e → S e) {v : HVal} (hr : ∀ x ver, Below H v x → Only S (r x ver)) (ver : Version) :
    Only S (GraphicDelta.write H r v ver) := by
  unfold GraphicDelta.write
  only hS hr

theorem GraphicAngleSound.write_only (hS : ∀ e, PyErr.OfWriting e → S e) {v : HVal} (hr : ∀ x ver, Below H v x → Only S (r x ver)) (ver : Version) :
    Only S (GraphicAngleSound.write H r v ver) := by
  unfold GraphicAngleSound.write
  only hS hr

theorem Graphic.write_only (hS : ∀ e, PyErr.OfWriting e → S e) {v : HVal} (hr : ∀ x ver, Below H v x → Only S (r x ver)) (ver : Version) :
    Only S (Graphic.write H r v ver) := by
  unfold Graphic.write
  only hS hr

theorem TerrainPassGraphic.write_only (hS : ∀ e, PyErr.OfWriting e → S e) {v : HVal} (hr : ∀ x ver, Below H v x → Only S (r x ver)) (ver : Version) :
    Only S (TerrainPassGraphic.write H r v ver) := by
  unfold TerrainPassGraphic.write
  only hS hr

theorem TerrainRestriction.write_only (hS : ∀ e, PyErr.OfWriting e → S e) {v : HVal} (hr : ∀ x ver, Below H v x → Only S (r x ver)) (ver : Version) :
    Only S (TerrainRestriction.write H r v ver) := by
  unfold TerrainRestriction.write
  only hS hr

theorem FrameData.write_only (hS : ∀ e, PyErr.OfWriting e → S e) {v : HVal} (hr : ∀ x ver, Below H v x → Only S (r x ver)) (ver : Version) :
    Only S (FrameData.write H r v ver) := by
  unfold FrameData.write
  only hS hr

theorem Terrain.write_only (hS : ∀ e, PyErr.OfWriting e → S e) {v : HVal} (hr : ∀ x ver, Below H v x → Only S (r x ver)) (ver : Version) :
    Only S (Terrain.write H r v ver) := by
  unfold Terrain.write
  only hS hr

theorem TileSize.write_only (hS : ∀ e, PyErr.OfWriting e → S e) {v : HVal} (hr : ∀ x ver, Below H v x → Only S (r x ver)) (ver : Version) :
    Only S (TileSize.write H r v ver) := by
  unfold TileSize.write
  only hS hr

theorem TerrainBlock.write_only (hS : ∀ e, PyErr.OfWriting e → S e) {v : HVal} (hr : ∀ x ver, Below H v x → Only S (r x ver)) (ver : Version) :
    Only S (TerrainBlock.write H r v ver) := by
  unfold TerrainBlock.write
  only hS hr

theorem MapUnit.write_only (hS : ∀ e, PyErr.OfWriting e → S e) {v : HVal} (hr : ∀ x ver, Below H v x → Only S (r x ver)) (ver : Version) :
    Only S (MapUnit.write H r v ver) := by
  unfold MapUnit.write
  only hS hr

theorem MapTerrain.write_only (hS : ∀ e, PyErr.OfWriting e → S e) {v : HVal} (hr : ∀ x ver, Below H v x → Only S (r x ver)) (ver : Version) :
    Only S (MapTerrain.write H r v ver) := by
  unfold MapTerrain.write
  only hS hr

theorem MapLand.write_only (hS : ∀ e, PyErr.OfWriting e → S e) {v : HVal} (hr : ∀ x ver, Below H v x → Only S (r x ver)) (ver : Version) :
    Only S (MapLand.write H r v ver) := by
  unfold MapLand.write
  only hS hr

theorem MapElevation.write_only (hS : ∀ e, PyErr.OfWriting e → S e) {v : HVal} (hr : ∀ x ver, Below H v x → Only S (r x ver)) (ver : Version) :
    Only S (MapElevation.write H r v ver) := by
  unfold MapElevation.write
  only hS hr

theorem MapInfo.write_only (hS : ∀ e, PyErr.OfWriting e → S e) {v : HVal} (hr : ∀ x ver, Below H v x → Only S (r x ver)) (ver : Version) :
    Only S (MapInfo.write H r v ver) := by
  unfold MapInfo.write
  only hS hr

theorem RandomMaps.write_only (hS : ∀ e, PyErr.OfWriting e → S e) {v : HVal} (hr : ∀ x ver, Below H v x → Only S (r x ver)) (ver : Version) :
    Only S (RandomMaps.write H r v ver) := by
  unfold RandomMaps.write
  only hS hr

theorem ResearchResourceCost.write_only (hS : ∀ e, PyErr.OfWriting e → S e) {v : HVal} (hr : ∀ x ver, Below H v x → Only S (r x ver)) (ver : Version) :
    Only S (ResearchResourceCost.write H r v ver) := by
  unfold ResearchResourceCost.write
  only hS hr

theorem ResearchLocation.write_only (hS : ∀ e, PyErr.OfWriting e → S e) {v : HVal} (hr : ∀ x ver, Below H v x → Only S (r x ver)) (ver : Version) :
    Only S (ResearchLocation.write H r v ver) := by
  unfold ResearchLocation.write
  only hS hr

theorem Tech.write84_only (hS : ∀ e, PyErr.OfWriting e → S e) {v : HVal} (hr : ∀ x ver, Below H v x → Only S (r x ver)) (ver : Version) :
    Only S (Tech.write84 H r v ver) := by
  unfold Tech.write84
  only hS hr

theorem Tech.write88_only (hS : ∀ e, PyErr.OfWriting e → S e) {v : HVal} (hr : ∀ x ver, Below H v x → Only S (r x ver)) (ver : Version) :
    Only S (Tech.write88 H r v ver) := by
  unfold Tech.write88
  only hS hr

theorem Tech.write_only (hS : ∀ e, PyErr.OfWriting e → S e) {v : HVal} (hr : ∀ x ver, Below H v x → Only S (r x ver)) (ver : Version) :
    Only S (Tech.write H r v ver) := by
  unfold Tech.write
  repeat' first | with_reducible apply ite_only | with_reducible exact Tech.write84_only hS hr _ | with_reducible exact Tech.write88_only hS hr _

theorem Common.write_only (hS : ∀ e, PyErr.OfWriting e → S e) {v : HVal} (hr : ∀ x ver, Below H v x → Only S (r x ver)) (ver : Version) :
    Only S (Common.write H r v ver) := by
  unfold Common.write
  only hS hr

theorem TechTreeAge.write_only (hS : ∀ e, PyErr.OfWriting e → S e) {v : HVal} (hr : ∀ x ver, Below H v x → Only S (r x ver)) (ver : Version) :
    Only S (TechTreeAge.write H r v ver) := by
  unfold TechTreeAge.write
  only hS hr

theorem BuildingConnection.write_only (hS : ∀ e, PyErr.OfWriting e → S e) {v : HVal} (hr : ∀ x ver, Below H v x → Only S (r x ver)) (ver : Version) :
    Only S (BuildingConnection.write H r v ver) := by
  unfold BuildingConnection.write
  only hS hr

theorem UnitConnection.write_only (hS : ∀ e, PyErr.OfWriting e → S e) {v : HVal} (hr : ∀ x ver, Below H v x → Only S (r x ver)) (ver : Version) :
    Only S (UnitConnection.write H r v ver) := by
  unfold UnitConnection.write
  only hS hr

theorem ResearchConnection.write_only (hS : ∀ e, PyErr.OfWriting e → S e) {v : HVal} (hr : ∀ x ver, Below H v x → Only S (r x ver)) (ver : Version) :
    Only S (ResearchConnection.write H r v ver) := by
  unfold ResearchConnection.write
  only hS hr

theorem TechTree.write_only (hS : ∀ e, PyErr.OfWriting e → S e) {v : HVal} (hr : ∀ x ver, Below H v x → Only S (r x ver)) (ver : Version) :
    Only S (TechTree.write H r v ver) := by
  unfold TechTree.write
  only hS hr

theorem Task.write84_only (hS : ∀ e, PyErr.OfWriting e → S e) {v : HVal} (hr : ∀ x ver, Below H v x → Only S (r x ver)) (ver : Version) :
    Only S (Task.write84 H r v ver) := by
  unfold Task.write84
  only hS hr

theorem Task.write88_only (hS : ∀ e, PyErr.OfWriting e → S e) {v : HVal} (hr : ∀ x ver, Below H v x → Only S (r x ver)) (ver : Version) :
    Only S (Task.write88 H r v ver) := by
  unfold Task.write88
  only hS hr

theorem Task.write_only (hS : ∀ e, PyErr.OfWriting e → S e) {v : HVal} (hr : ∀ x ver, Below H v x → Only S (r x ver)) (ver : Version) :
    Only S (Task.write H r v ver) := by
  unfold Task.write
  repeat' first | with_reducible apply ite_only | with_reducible exact Task.write84_only hS hr _ | with_reducible exact Task.write88_only hS hr _

theorem ResourceStorage.write_only (hS : ∀ e, PyErr.OfWriting e → S e) {v : HVal} (hr : ∀ x ver, Below H v x → Only S (r x ver)) (ver : Version) :
    Only S (ResourceStorage.write H r v ver) := by
  unfold ResourceStorage.write
  only hS hr

theorem DamageGraphic.write_only (hS : ∀ e, PyErr.OfWriting e → S e) {v : HVal} (hr : ∀ x ver, Below H v x → Only S (r x ver)) (ver : Version) :
    Only S (DamageGraphic.write H r v ver) := by
  unfold DamageGraphic.write
  only hS hr

theorem DeadFish.write_only (hS : ∀ e, PyErr.OfWriting e → S e) {v : HVal} (hr : ∀ x ver, Below H v x → Only S (r x ver)) (ver : Version) :
    Only S (DeadFish.write H r v ver) := by
  unfold DeadFish.write
  only hS hr

theorem Bird.write_only (hS : ∀ e, PyErr.OfWriting e → S e) {v : HVal} (hr : ∀ x ver, Below H v x → Only S (r x ver)) (ver : Version) :
    Only S (Bird.write H r v ver) := by
  unfold Bird.write
  only hS hr

theorem AttackOrArmor.write_only (hS : ∀ e, PyErr.OfWriting e → S e) {v : HVal} (hr : ∀ x ver, Below H v x → Only S (r x ver)) (ver : Version) :
    Only S (AttackOrArmor.write H r v ver) := by
  unfold AttackOrArmor.write
  only hS hr

theorem Type50.write_only (hS : ∀ e, PyErr.OfWriting e → S e) {v : HVal} (hr : ∀ x ver, Below H v x → Only S (r x ver)) (ver : Version) :
    Only S (Type50.write H r v ver) := by
  unfold Type50.write
  only hS hr

theorem Projectile.write_only (hS : ∀ e, PyErr.OfWriting e → S e) {v : HVal} (hr : ∀ x ver, Below H v x → Only S (r x ver)) (ver : Version) :
    Only S (Projectile.write H r v ver) := by
  unfold Projectile.write
  only hS hr

theorem ResourceCost.write_only (hS : ∀ e, PyErr.OfWriting e → S e) {v : HVal} (hr : ∀ x ver, Below H v x → Only S (r x ver)) (ver : Version) :
    Only S (ResourceCost.write H r v ver) := by
  unfold ResourceCost.write
  only hS hr

theorem TrainLocation.write_only (hS : ∀ e, PyErr.OfWriting e → S e) {v : HVal} (hr : ∀ x ver, Below H v x → Only S (r x ver)) (ver : Version) :
    Only S (TrainLocation.write H r v ver) := by
  unfold TrainLocation.write
  only hS hr

theorem Creatable.write78_only (hS : ∀ e, PyErr.OfWriting e → S e) {v : HVal} (hr : ∀ x ver, Below H v x → Only S (r x ver)) (ver : Version) :
    Only S (Creatable.write78 H r v ver) := by
  unfold Creatable.write78
  only hS hr

theorem Creatable.write84_only (hS : ∀ e, PyErr.OfWriting e → S e) {v : HVal} (hr : ∀ x ver, Below H v x → Only S (r x ver)) (ver : Version) :
    Only S (Creatable.write84 H r v ver) := by
  unfold Creatable.write84
  only hS hr

theorem Creatable.write88_only (hS : ∀ e, PyErr.OfWriting e → S e) {v : HVal} (hr : ∀ x ver, Below H v x → Only S (r x ver)) (ver : Version) :
    Only S (Creatable.write88 H r v ver) := by
  unfold Creatable.write88
  only hS hr

theorem Creatable.write_only (hS : ∀ e, PyErr.OfWriting e → S e) {v : HVal} (hr : ∀ x ver, Below H v x → Only S (r x ver)) (ver : Version) :
    Only S (Creatable.write H r v ver) := by
  unfold Creatable.write
  repeat' first | with_reducible apply ite_only | with_reducible exact Creatable.write78_only hS hr _ | with_reducible exact Creatable.write84_only hS hr _ | with_reducible exact Creatable.write88_only hS hr _

theorem BuildingAnnex.write_only (hS : ∀ e, PyErr.OfWriting e → S e) {v : HVal} (hr : ∀ x ver, Below H v x → Only S (r x ver)) (ver : Version) :
    Only S (BuildingAnnex.write H r v ver) := by
  unfold BuildingAnnex.write
  only hS hr

theorem Building.write_only (hS : ∀ e, PyErr.OfWriting e → S e) {v : HVal} (hr : ∀ x ver, Below H v x → Only S (r x ver)) (ver : Version) :
    Only S (Building.write H r v ver) := by
  unfold Building.write
  only hS hr

theorem Unit.write84_only (hS : ∀ e, PyErr.OfWriting e → S e) {v : HVal} (hr : ∀ x ver, Below H v x → Only S (r x ver)) (ver : Version) :
    Only S (Unit.write84 H r v ver) := by
  unfold Unit.write84
  only hS hr

theorem Unit.write88_only (hS : ∀ e, PyErr.OfWriting e → S e) {v : HVal} (hr : ∀ x ver, Below H v x → Only S (r x ver)) (ver : Version) :
    Only S (Unit.write88 H r v ver) := by
  unfold Unit.write88
  only hS hr

theorem Unit.write_only (hS : ∀ e, PyErr.OfWriting e → S e) {v : HVal} (hr : ∀ x ver, Below H v x → Only S (r x ver)) (ver : Version) :
    Only S (Unit.write H r v ver) := by
  unfold Unit.write
  repeat' first | with_reducible apply ite_only | with_reducible exact Unit.write84_only hS hr _ | with_reducible exact Unit.write88_only hS hr _

theorem UnitHeaders.write_only (hS : ∀ e, PyErr.OfWriting e → S e) {v : HVal} (hr : ∀ x ver, Below H v x → Only S (r x ver)) (ver : Version) :
    Only S (UnitHeaders.write H r v ver) := by
  unfold UnitHeaders.write
  only hS hr

theorem Civ.write_only (hS : ∀ e, PyErr.OfWriting e → S e) {v : HVal} (hr : ∀ x ver, Below H v x → Only S (r x ver)) (ver : Version) :
    Only S (Civ.write H r v ver) := by
  unfold Civ.write
  only hS hr

theorem DatFile.write_only (hS : ∀ e, PyErr.OfWriting e → S e) {v : HVal} (hr : ∀ x ver, Below H v x → Only S (r x ver)) (ver : Version) :
    Only S (DatFile.write H r v ver) := by
  unfold DatFile.write
  only hS hr

/-- All methods of the table. -/
theorem W.method_only (hS : ∀ e, PyErr.OfWriting e → S e) {v : HVal} (hr : ∀ x ver, Below H v x → Only S (r x ver)) (ver : Version) :
    ∀ p ∈ W.methods, Only S (p.2 H r v ver) := by
  unfold W.methods
  simp only [List.forall_mem_cons]
  refine ⟨EffectCommand.write_only hS hr ver, Effect.write_only hS hr ver, SoundItem.write_only hS hr ver, Sound.write_only hS hr ver, PlayerColour.write_only hS hr ver, GraphicDelta.write_only hS hr ver, GraphicAngleSound.write_only hS hr ver, Graphic.write_only hS hr ver, TerrainPassGraphic.write_only hS hr ver, TerrainRestriction.write_only hS hr ver, FrameData.write_only hS hr ver, Terrain.write_only hS hr ver, TileSize.write_only hS hr ver, TerrainBlock.write_only hS hr ver, MapUnit.write_only hS hr ver, MapTerrain.write_only hS hr ver, MapLand.write_only hS hr ver, MapElevation.write_only hS hr ver, MapInfo.write_only hS hr ver, RandomMaps.write_only hS hr ver, ResearchResourceCost.write_only hS hr ver, ResearchLocation.write_only hS hr ver, Tech.write_only hS hr ver, Common.write_only hS hr ver, TechTreeAge.write_only hS hr ver, BuildingConnection.write_only hS hr ver, UnitConnection.write_only hS hr ver, ResearchConnection.write_only hS hr ver, TechTree.write_only hS hr ver, Task.write_only hS hr ver, ResourceStorage.write_only hS hr ver, DamageGraphic.write_only hS hr ver, DeadFish.write_only hS hr ver, Bird.write_only hS hr ver, AttackOrArmor.write_only hS hr ver, Type50.write_only hS hr ver, Projectile.write_only hS hr ver, ResourceCost.write_only hS hr ver, TrainLocation.write_only hS hr ver, Creatable.write_only hS hr ver, BuildingAnnex.write_only hS hr ver, Building.write_only hS hr ver, Unit.write_only hS hr ver, UnitHeaders.write_only hS hr ver, Civ.write_only hS hr ver, DatFile.write_only hS hr ver, fun p hp => nomatch hp⟩

theorem W.toBytes_only (depth : Nat) (v : HVal) (ver : Version) :
    Only (fun e => PyErr.OfWriting e ∨ e = .recursionError) (W.toBytes H depth v ver) := by
  induction depth generalizing v ver with
  | zero => exact only_error (.inr rfl)
  | succ depth ih =>
    unfold W.toBytes
    split
    · exact only_error (.inl (by simp [PyErr.OfWriting]))
    · split
      · next m hm =>
        obtain ⟨p, hp, rfl⟩ := W.method_mem hm
        exact W.method_only (fun e h => .inl h) (fun x ver _ => ih x ver) ver p hp
      · exact only_error (.inl (by simp [PyErr.OfWriting]))
    · exact only_error (.inl (by simp [PyErr.OfWriting]))

end Genie
