import Verif.Proof.Heap.Alike
/-!
# `to_bytes` of objects that look the same

Every writer: it uses the object through `W.attr`, `W.item`, `W.iter` and so on only.
-/

namespace Genie
open W

/-- Go through a writer, expression by expression; `h` is what is known about the object and `hr` about the calls of other writers. -/
local macro "alike" h:ident hr:ident : tactic => `(tactic|
  repeat' first
    | with_reducible exact attr_alike $h _
    | with_reducible apply joinB_alike
    | with_reducible apply arg_alike
    | with_reducible apply ArgsAlike.cons
    | with_reducible exact ArgsAlike.nil
    | with_reducible apply int16_alike
    | with_reducible apply int32_alike
    | with_reducible apply int8_alike
    | with_reducible apply nat_alike
    | with_reducible apply len_alike
    | with_reducible apply classArray_alike $hr
    | with_reducible apply cls_alike $hr
    | with_reducible apply float_alike
    | with_reducible apply debugString_alike
    | with_reducible apply string_alike
    | with_reducible apply pack_alike
    | with_reducible apply int8Array_alike
    | with_reducible apply int16Array_alike
    | with_reducible apply int32Array_alike
    | with_reducible apply floatArray_alike
    | with_reducible apply pointers_alike
    | with_reducible apply int16If_alike
    | with_reducible apply iter_alike
    | with_reducible apply attrOf_alike
    | with_reducible apply item_alike
    | with_reducible apply ite_same
    | with_reducible apply ite_alike
    | with_reducible apply when_cons
    | with_reducible apply when_nil
    | with_reducible apply neInt_alike
    | with_reducible apply geInt_alike
    | with_reducible apply eqInt_alike
    | with_reducible apply truthyOf_alike
    | with_reducible apply ifNotNone_alike
    | with_reducible exact lit_alike _
    | with_reducible rfl)

variable {H1 H2 : Heap} {r1 r2 : Rec}

theorem EffectCommand.write_alike (hr : ∀ x y ver, Alike H1 x H2 y → r1 x ver = r2 y ver) {v w : HVal} (h : Alike H1 v H2 w) (ver : Version) :
    EffectCommand.write H1 r1 v ver = EffectCommand.write H2 r2 w ver := by
  unfold EffectCommand.write
  alike h hr

theorem Effect.write_alike (hr : ∀ x y ver, Alike H1 x H2 y → r1 x ver = r2 y ver) {v w : HVal} (h : Alike H1 v H2 w) (ver : Version) :
    Effect.write H1 r1 v ver = Effect.write H2 r2 w ver := by
  unfold Effect.write
  alike h hr

theorem SoundItem.write_alike (hr : ∀ x y ver, Alike H1 x H2 y → r1 x ver = r2 y ver) {v w : HVal} (h : Alike H1 v H2 w) (ver : Version) :
    SoundItem.write H1 r1 v ver = SoundItem.write H2 r2 w ver := by
  unfold SoundItem.write
  alike h hr

theorem Sound.write_alike (hr : ∀ x y ver, Alike H1 x H2 y → r1 x ver = r2 y ver) {v w : HVal} (h : Alike H1 v H2 w) (ver : Version) :
    Sound.write H1 r1 v ver = Sound.write H2 r2 w ver := by
  unfold Sound.write
  alike h hr

theorem PlayerColour.write_alike (hr : ∀ x y ver, Alike H1 x H2 y → r1 x ver = r2 y ver) {v w : HVal} (h : Alike H1 v H2 w) (ver : Version) :
    PlayerColour.write H1 r1 v ver = PlayerColour.write H2 r2 w ver := by
  unfold PlayerColour.write
  alike h hr

theorem GraphicDelta.write_alike (hr : ∀ x y ver, Alike H1 x H2 y → r1 x ver = r2 y ver) {v w : HVal} (h : Alike H1 v H2 w) (ver : Version) :
    GraphicDelta.write H1 r1 v ver = GraphicDelta.write H2 r2 w ver := by
  unfold GraphicDelta.write
  alike h hr

theorem GraphicAngleSound.write_alike (hr : ∀ x y ver, Alike H1 x H2 y → r1 x ver = r2 y ver) {v w : HVal} (h : Alike H1 v H2 w) (ver : Version) :
    GraphicAngleSound.write H1 r1 v ver = GraphicAngleSound.write H2 r2 w ver := by
  unfold GraphicAngleSound.write
  alike h hr

theorem Graphic.write_alike (hr : ∀ x y ver, Alike H1 x H2 y → r1 x ver = r2 y ver) {v w : HVal} (h : Alike H1 v H2 w) (ver : Version) :
    Graphic.write H1 r1 v ver = Graphic.write H2 r2 w ver := by
  unfold Graphic.write
  alike h hr

theorem TerrainPassGraphic.write_alike (hr : ∀ x y ver, Alike H1 x H2 y → r1 x ver = r2 y ver) {v w : HVal} (h : Alike H1 v H2 w) (ver : Version) :
    TerrainPassGraphic.write H1 r1 v ver = TerrainPassGraphic.write H2 r2 w ver := by
  unfold TerrainPassGraphic.write
  alike h hr

theorem TerrainRestriction.write_alike (hr : ∀ x y ver, Alike H1 x H2 y → r1 x ver = r2 y ver) {v w : HVal} (h : Alike H1 v H2 w) (ver : Version) :
    TerrainRestriction.write H1 r1 v ver = TerrainRestriction.write H2 r2 w ver := by
  unfold TerrainRestriction.write
  refine bind_same ?_ fun n => ?_
  · alike h hr
  refine bind_same ?_ fun m => ?_
  · alike h hr
  refine ite_same rfl ?_
  alike h hr

theorem FrameData.write_alike (hr : ∀ x y ver, Alike H1 x H2 y → r1 x ver = r2 y ver) {v w : HVal} (h : Alike H1 v H2 w) (ver : Version) :
    FrameData.write H1 r1 v ver = FrameData.write H2 r2 w ver := by
  unfold FrameData.write
  alike h hr

theorem Terrain.write_alike (hr : ∀ x y ver, Alike H1 x H2 y → r1 x ver = r2 y ver) {v w : HVal} (h : Alike H1 v H2 w) (ver : Version) :
    Terrain.write H1 r1 v ver = Terrain.write H2 r2 w ver := by
  unfold Terrain.write
  alike h hr

theorem TileSize.write_alike (hr : ∀ x y ver, Alike H1 x H2 y → r1 x ver = r2 y ver) {v w : HVal} (h : Alike H1 v H2 w) (ver : Version) :
    TileSize.write H1 r1 v ver = TileSize.write H2 r2 w ver := by
  unfold TileSize.write
  alike h hr

theorem TerrainBlock.write_alike (hr : ∀ x y ver, Alike H1 x H2 y → r1 x ver = r2 y ver) {v w : HVal} (h : Alike H1 v H2 w) (ver : Version) :
    TerrainBlock.write H1 r1 v ver = TerrainBlock.write H2 r2 w ver := by
  unfold TerrainBlock.write
  alike h hr

theorem MapUnit.write_alike (hr : ∀ x y ver, Alike H1 x H2 y → r1 x ver = r2 y ver) {v w : HVal} (h : Alike H1 v H2 w) (ver : Version) :
    MapUnit.write H1 r1 v ver = MapUnit.write H2 r2 w ver := by
  unfold MapUnit.write
  alike h hr

theorem MapTerrain.write_alike (hr : ∀ x y ver, Alike H1 x H2 y → r1 x ver = r2 y ver) {v w : HVal} (h : Alike H1 v H2 w) (ver : Version) :
    MapTerrain.write H1 r1 v ver = MapTerrain.write H2 r2 w ver := by
  unfold MapTerrain.write
  alike h hr

theorem MapLand.write_alike (hr : ∀ x y ver, Alike H1 x H2 y → r1 x ver = r2 y ver) {v w : HVal} (h : Alike H1 v H2 w) (ver : Version) :
    MapLand.write H1 r1 v ver = MapLand.write H2 r2 w ver := by
  unfold MapLand.write
  alike h hr

theorem MapElevation.write_alike (hr : ∀ x y ver, Alike H1 x H2 y → r1 x ver = r2 y ver) {v w : HVal} (h : Alike H1 v H2 w) (ver : Version) :
    MapElevation.write H1 r1 v ver = MapElevation.write H2 r2 w ver := by
  unfold MapElevation.write
  alike h hr

theorem MapInfo.write_alike (hr : ∀ x y ver, Alike H1 x H2 y → r1 x ver = r2 y ver) {v w : HVal} (h : Alike H1 v H2 w) (ver : Version) :
    MapInfo.write H1 r1 v ver = MapInfo.write H2 r2 w ver := by
  unfold MapInfo.write
  alike h hr

theorem RandomMaps.write_alike (hr : ∀ x y ver, Alike H1 x H2 y → r1 x ver = r2 y ver) {v w : HVal} (h : Alike H1 v H2 w) (ver : Version) :
    RandomMaps.write H1 r1 v ver = RandomMaps.write H2 r2 w ver := by
  unfold RandomMaps.write
  refine bind_same ?_ fun n => ?_
  · alike h hr
  refine bind_same ?_ fun m => ?_
  · alike h hr
  refine ite_same rfl ?_
  alike h hr

theorem ResearchResourceCost.write_alike (hr : ∀ x y ver, Alike H1 x H2 y → r1 x ver = r2 y ver) {v w : HVal} (h : Alike H1 v H2 w) (ver : Version) :
    ResearchResourceCost.write H1 r1 v ver = ResearchResourceCost.write H2 r2 w ver := by
  unfold ResearchResourceCost.write
  alike h hr

theorem ResearchLocation.write_alike (hr : ∀ x y ver, Alike H1 x H2 y → r1 x ver = r2 y ver) {v w : HVal} (h : Alike H1 v H2 w) (ver : Version) :
    ResearchLocation.write H1 r1 v ver = ResearchLocation.write H2 r2 w ver := by
  unfold ResearchLocation.write
  alike h hr

set_option maxHeartbeats 1000000 in
theorem Tech.write84_alike (hr : ∀ x y ver, Alike H1 x H2 y → r1 x ver = r2 y ver) {v w : HVal} (h : Alike H1 v H2 w) (ver : Version) :
    Tech.write84 H1 r1 v ver = Tech.write84 H2 r2 w ver := by
  unfold Tech.write84
  refine bind_same ?_ fun n => ?_
  · alike h hr
  dsimp only
  by_cases hn : n ≠ 0
  · simp only [if_pos hn]
    refine bind_alike (H1 := H1) (H2 := H2) ?_ fun x1 y1 h1 => ?_
    · alike h hr
    refine bind_alike (H1 := H1) (H2 := H2) ?_ fun x2 y2 h2 => ?_
    · alike h hr
    refine bind_alike (H1 := H1) (H2 := H2) ?_ fun x3 y3 h3 => ?_
    · alike h hr
    refine bind_alike (H1 := H1) (H2 := H2) ?_ fun x4 y4 h4 => ?_
    · alike h hr
    have k1 := PyAlike.ok h1
    have k2 := PyAlike.ok h2
    have k3 := PyAlike.ok h3
    have k4 := PyAlike.ok h4
    alike h hr
    all_goals assumption
  · simp only [if_neg hn, bind, Except.bind]
    alike h hr

theorem Tech.write88_alike (hr : ∀ x y ver, Alike H1 x H2 y → r1 x ver = r2 y ver) {v w : HVal} (h : Alike H1 v H2 w) (ver : Version) :
    Tech.write88 H1 r1 v ver = Tech.write88 H2 r2 w ver := by
  unfold Tech.write88
  alike h hr

theorem Tech.write_alike (hr : ∀ x y ver, Alike H1 x H2 y → r1 x ver = r2 y ver) {v w : HVal} (h : Alike H1 v H2 w) (ver : Version) :
    Tech.write H1 r1 v ver = Tech.write H2 r2 w ver := by
  unfold Tech.write
  repeat' first | exact Tech.write84_alike hr h _ | exact Tech.write88_alike hr h _ | apply ite_same

theorem Common.write_alike (hr : ∀ x y ver, Alike H1 x H2 y → r1 x ver = r2 y ver) {v w : HVal} (h : Alike H1 v H2 w) (ver : Version) :
    Common.write H1 r1 v ver = Common.write H2 r2 w ver := by
  unfold Common.write
  alike h hr

theorem TechTreeAge.write_alike (hr : ∀ x y ver, Alike H1 x H2 y → r1 x ver = r2 y ver) {v w : HVal} (h : Alike H1 v H2 w) (ver : Version) :
    TechTreeAge.write H1 r1 v ver = TechTreeAge.write H2 r2 w ver := by
  unfold TechTreeAge.write
  alike h hr

theorem BuildingConnection.write_alike (hr : ∀ x y ver, Alike H1 x H2 y → r1 x ver = r2 y ver) {v w : HVal} (h : Alike H1 v H2 w) (ver : Version) :
    BuildingConnection.write H1 r1 v ver = BuildingConnection.write H2 r2 w ver := by
  unfold BuildingConnection.write
  alike h hr

theorem UnitConnection.write_alike (hr : ∀ x y ver, Alike H1 x H2 y → r1 x ver = r2 y ver) {v w : HVal} (h : Alike H1 v H2 w) (ver : Version) :
    UnitConnection.write H1 r1 v ver = UnitConnection.write H2 r2 w ver := by
  unfold UnitConnection.write
  alike h hr

theorem ResearchConnection.write_alike (hr : ∀ x y ver, Alike H1 x H2 y → r1 x ver = r2 y ver) {v w : HVal} (h : Alike H1 v H2 w) (ver : Version) :
    ResearchConnection.write H1 r1 v ver = ResearchConnection.write H2 r2 w ver := by
  unfold ResearchConnection.write
  alike h hr

theorem TechTree.write_alike (hr : ∀ x y ver, Alike H1 x H2 y → r1 x ver = r2 y ver) {v w : HVal} (h : Alike H1 v H2 w) (ver : Version) :
    TechTree.write H1 r1 v ver = TechTree.write H2 r2 w ver := by
  unfold TechTree.write
  alike h hr

theorem Task.write84_alike (hr : ∀ x y ver, Alike H1 x H2 y → r1 x ver = r2 y ver) {v w : HVal} (h : Alike H1 v H2 w) (ver : Version) :
    Task.write84 H1 r1 v ver = Task.write84 H2 r2 w ver := by
  unfold Task.write84
  alike h hr

theorem Task.write88_alike (hr : ∀ x y ver, Alike H1 x H2 y → r1 x ver = r2 y ver) {v w : HVal} (h : Alike H1 v H2 w) (ver : Version) :
    Task.write88 H1 r1 v ver = Task.write88 H2 r2 w ver := by
  unfold Task.write88
  alike h hr

theorem Task.write_alike (hr : ∀ x y ver, Alike H1 x H2 y → r1 x ver = r2 y ver) {v w : HVal} (h : Alike H1 v H2 w) (ver : Version) :
    Task.write H1 r1 v ver = Task.write H2 r2 w ver := by
  unfold Task.write
  repeat' first | exact Task.write84_alike hr h _ | exact Task.write88_alike hr h _ | apply ite_same

theorem ResourceStorage.write_alike (hr : ∀ x y ver, Alike H1 x H2 y → r1 x ver = r2 y ver) {v w : HVal} (h : Alike H1 v H2 w) (ver : Version) :
    ResourceStorage.write H1 r1 v ver = ResourceStorage.write H2 r2 w ver := by
  unfold ResourceStorage.write
  alike h hr

theorem DamageGraphic.write_alike (hr : ∀ x y ver, Alike H1 x H2 y → r1 x ver = r2 y ver) {v w : HVal} (h : Alike H1 v H2 w) (ver : Version) :
    DamageGraphic.write H1 r1 v ver = DamageGraphic.write H2 r2 w ver := by
  unfold DamageGraphic.write
  alike h hr

theorem DeadFish.write_alike (hr : ∀ x y ver, Alike H1 x H2 y → r1 x ver = r2 y ver) {v w : HVal} (h : Alike H1 v H2 w) (ver : Version) :
    DeadFish.write H1 r1 v ver = DeadFish.write H2 r2 w ver := by
  unfold DeadFish.write
  alike h hr

theorem Bird.write_alike (hr : ∀ x y ver, Alike H1 x H2 y → r1 x ver = r2 y ver) {v w : HVal} (h : Alike H1 v H2 w) (ver : Version) :
    Bird.write H1 r1 v ver = Bird.write H2 r2 w ver := by
  unfold Bird.write
  alike h hr

theorem AttackOrArmor.write_alike (hr : ∀ x y ver, Alike H1 x H2 y → r1 x ver = r2 y ver) {v w : HVal} (h : Alike H1 v H2 w) (ver : Version) :
    AttackOrArmor.write H1 r1 v ver = AttackOrArmor.write H2 r2 w ver := by
  unfold AttackOrArmor.write
  alike h hr

theorem Type50.write_alike (hr : ∀ x y ver, Alike H1 x H2 y → r1 x ver = r2 y ver) {v w : HVal} (h : Alike H1 v H2 w) (ver : Version) :
    Type50.write H1 r1 v ver = Type50.write H2 r2 w ver := by
  unfold Type50.write
  alike h hr

theorem Projectile.write_alike (hr : ∀ x y ver, Alike H1 x H2 y → r1 x ver = r2 y ver) {v w : HVal} (h : Alike H1 v H2 w) (ver : Version) :
    Projectile.write H1 r1 v ver = Projectile.write H2 r2 w ver := by
  unfold Projectile.write
  alike h hr

theorem ResourceCost.write_alike (hr : ∀ x y ver, Alike H1 x H2 y → r1 x ver = r2 y ver) {v w : HVal} (h : Alike H1 v H2 w) (ver : Version) :
    ResourceCost.write H1 r1 v ver = ResourceCost.write H2 r2 w ver := by
  unfold ResourceCost.write
  alike h hr

theorem TrainLocation.write_alike (hr : ∀ x y ver, Alike H1 x H2 y → r1 x ver = r2 y ver) {v w : HVal} (h : Alike H1 v H2 w) (ver : Version) :
    TrainLocation.write H1 r1 v ver = TrainLocation.write H2 r2 w ver := by
  unfold TrainLocation.write
  refine ite_same ?_ ?_ <;> (alike h hr)

theorem Creatable.write78_alike (hr : ∀ x y ver, Alike H1 x H2 y → r1 x ver = r2 y ver) {v w : HVal} (h : Alike H1 v H2 w) (ver : Version) :
    Creatable.write78 H1 r1 v ver = Creatable.write78 H2 r2 w ver := by
  unfold Creatable.write78
  alike h hr

theorem Creatable.write84_alike (hr : ∀ x y ver, Alike H1 x H2 y → r1 x ver = r2 y ver) {v w : HVal} (h : Alike H1 v H2 w) (ver : Version) :
    Creatable.write84 H1 r1 v ver = Creatable.write84 H2 r2 w ver := by
  unfold Creatable.write84
  alike h hr

theorem Creatable.write88_alike (hr : ∀ x y ver, Alike H1 x H2 y → r1 x ver = r2 y ver) {v w : HVal} (h : Alike H1 v H2 w) (ver : Version) :
    Creatable.write88 H1 r1 v ver = Creatable.write88 H2 r2 w ver := by
  unfold Creatable.write88
  alike h hr

theorem Creatable.write_alike (hr : ∀ x y ver, Alike H1 x H2 y → r1 x ver = r2 y ver) {v w : HVal} (h : Alike H1 v H2 w) (ver : Version) :
    Creatable.write H1 r1 v ver = Creatable.write H2 r2 w ver := by
  unfold Creatable.write
  repeat' first | exact Creatable.write78_alike hr h _ | exact Creatable.write84_alike hr h _ | exact Creatable.write88_alike hr h _ | apply ite_same

theorem BuildingAnnex.write_alike (hr : ∀ x y ver, Alike H1 x H2 y → r1 x ver = r2 y ver) {v w : HVal} (h : Alike H1 v H2 w) (ver : Version) :
    BuildingAnnex.write H1 r1 v ver = BuildingAnnex.write H2 r2 w ver := by
  unfold BuildingAnnex.write
  alike h hr

theorem Building.write_alike (hr : ∀ x y ver, Alike H1 x H2 y → r1 x ver = r2 y ver) {v w : HVal} (h : Alike H1 v H2 w) (ver : Version) :
    Building.write H1 r1 v ver = Building.write H2 r2 w ver := by
  unfold Building.write
  alike h hr

theorem Unit.write84_alike (hr : ∀ x y ver, Alike H1 x H2 y → r1 x ver = r2 y ver) {v w : HVal} (h : Alike H1 v H2 w) (ver : Version) :
    Unit.write84 H1 r1 v ver = Unit.write84 H2 r2 w ver := by
  unfold Unit.write84
  refine bind_same ?_ fun _ => ?_
  · alike h hr
  refine bind_same ?_ fun _ => ?_
  · alike h hr
  refine bind_same ?_ fun _ => ?_
  · alike h hr
  refine bind_same ?_ fun _ => ?_
  · alike h hr
  refine bind_same ?_ fun _ => ?_
  · alike h hr
  refine bind_same ?_ fun _ => ?_
  · alike h hr
  refine bind_same ?_ fun _ => ?_
  · alike h hr
  alike h hr

theorem Unit.write88_alike (hr : ∀ x y ver, Alike H1 x H2 y → r1 x ver = r2 y ver) {v w : HVal} (h : Alike H1 v H2 w) (ver : Version) :
    Unit.write88 H1 r1 v ver = Unit.write88 H2 r2 w ver := by
  unfold Unit.write88
  refine bind_same ?_ fun _ => ?_
  · alike h hr
  refine bind_same ?_ fun _ => ?_
  · alike h hr
  refine bind_same ?_ fun _ => ?_
  · alike h hr
  refine bind_same ?_ fun _ => ?_
  · alike h hr
  refine bind_same ?_ fun _ => ?_
  · alike h hr
  refine bind_same ?_ fun _ => ?_
  · alike h hr
  refine bind_same ?_ fun _ => ?_
  · alike h hr
  alike h hr

theorem Unit.write_alike (hr : ∀ x y ver, Alike H1 x H2 y → r1 x ver = r2 y ver) {v w : HVal} (h : Alike H1 v H2 w) (ver : Version) :
    Unit.write H1 r1 v ver = Unit.write H2 r2 w ver := by
  unfold Unit.write
  repeat' first | exact Unit.write84_alike hr h _ | exact Unit.write88_alike hr h _ | apply ite_same

theorem UnitHeaders.write_alike (hr : ∀ x y ver, Alike H1 x H2 y → r1 x ver = r2 y ver) {v w : HVal} (h : Alike H1 v H2 w) (ver : Version) :
    UnitHeaders.write H1 r1 v ver = UnitHeaders.write H2 r2 w ver := by
  unfold UnitHeaders.write
  alike h hr

theorem Civ.write_alike (hr : ∀ x y ver, Alike H1 x H2 y → r1 x ver = r2 y ver) {v w : HVal} (h : Alike H1 v H2 w) (ver : Version) :
    Civ.write H1 r1 v ver = Civ.write H2 r2 w ver := by
  unfold Civ.write
  alike h hr

set_option maxHeartbeats 1000000 in
theorem DatFile.write_alike (hr : ∀ x y ver, Alike H1 x H2 y → r1 x ver = r2 y ver) {v w : HVal} (h : Alike H1 v H2 w) (ver : Version) :
    DatFile.write H1 r1 v ver = DatFile.write H2 r2 w ver := by
  unfold DatFile.write
  refine bind_same (by alike h hr; exact version_alike (attr_alike h _)) fun ver' => ?_
  refine bind_same ?_ fun _ => ?_
  · alike h hr
  refine bind_same ?_ fun _ => ?_
  · alike h hr
  refine bind_same ?_ fun _ => ?_
  · alike h hr
  refine ite_same rfl ?_
  refine bind_alike (attr_alike h _) fun x y hxy => ?_
  rw [truthy_alike hxy]
  dsimp only
  refine ite_same ?_ ?_
  · refine bind_same ?_ fun _ => ?_
    · alike h hr
    · alike h hr
  · refine bind_same rfl fun _ => ?_
    alike h hr

/-- All methods of the table. -/
theorem W.method_alike (hr : ∀ x y ver, Alike H1 x H2 y → r1 x ver = r2 y ver) {v w : HVal} (h : Alike H1 v H2 w) (ver : Version) :
    ∀ p ∈ W.methods, p.2 H1 r1 v ver = p.2 H2 r2 w ver := by
  unfold W.methods
  simp only [List.forall_mem_cons]
  refine ⟨EffectCommand.write_alike hr h ver, Effect.write_alike hr h ver, SoundItem.write_alike hr h ver, Sound.write_alike hr h ver, PlayerColour.write_alike hr h ver, GraphicDelta.write_alike hr h ver, GraphicAngleSound.write_alike hr h ver, Graphic.write_alike hr h ver, TerrainPassGraphic.write_alike hr h ver, TerrainRestriction.write_alike hr h ver, FrameData.write_alike hr h ver, Terrain.write_alike hr h ver, TileSize.write_alike hr h ver, TerrainBlock.write_alike hr h ver, MapUnit.write_alike hr h ver, MapTerrain.write_alike hr h ver, MapLand.write_alike hr h ver, MapElevation.write_alike hr h ver, MapInfo.write_alike hr h ver, RandomMaps.write_alike hr h ver, ResearchResourceCost.write_alike hr h ver, ResearchLocation.write_alike hr h ver, Tech.write_alike hr h ver, Common.write_alike hr h ver, TechTreeAge.write_alike hr h ver, BuildingConnection.write_alike hr h ver, UnitConnection.write_alike hr h ver, ResearchConnection.write_alike hr h ver, TechTree.write_alike hr h ver, Task.write_alike hr h ver, ResourceStorage.write_alike hr h ver, DamageGraphic.write_alike hr h ver, DeadFish.write_alike hr h ver, Bird.write_alike hr h ver, AttackOrArmor.write_alike hr h ver, Type50.write_alike hr h ver, Projectile.write_alike hr h ver, ResourceCost.write_alike hr h ver, TrainLocation.write_alike hr h ver, Creatable.write_alike hr h ver, BuildingAnnex.write_alike hr h ver, Building.write_alike hr h ver, Unit.write_alike hr h ver, UnitHeaders.write_alike hr h ver, Civ.write_alike hr h ver, DatFile.write_alike hr h ver, fun p hp => nomatch hp⟩

theorem W.method_mem {name : PyStr} {m : Heap → W.Rec → HVal → Version → Py Bytes} : ∀ {l : List (PyStr × (Heap → W.Rec → HVal → Version → Py Bytes))},
    W.method name l = some m → ∃ p ∈ l, p.2 = m
  | (n, m') :: rest, h => by
    unfold W.method at h
    by_cases hn : n = name
    · rw [if_pos hn] at h
      cases h
      exact ⟨_, List.mem_cons_self, rfl⟩
    · rw [if_neg hn] at h
      obtain ⟨p, hp, e⟩ := W.method_mem h
      exact ⟨p, List.mem_cons_of_mem _ hp, e⟩

theorem W.toBytes_alike (depth : Nat) {v w : HVal} (h : Alike H1 v H2 w) (ver : Version) : W.toBytes H1 depth v ver = W.toBytes H2 depth w ver := by
  induction depth generalizing v w ver with
  | zero => rfl
  | succ depth ih =>
    unfold W.toBytes
    cases h.cases with
    | @ref p q hc =>
      simp only [W.cell]
      generalize H1[p]? = c1 at hc ⊢
      generalize H2[q]? = c2 at hc ⊢
      cases hc with
      | none => rfl
      | list => rfl
      | tuple => rfl
      | @record c as bs _ =>
        dsimp only
        cases hm : W.method c W.methods with
        | none => rfl
        | some m =>
          obtain ⟨p, hp, rfl⟩ := W.method_mem hm
          exact W.method_alike (fun x y ver h => ih h ver) h ver p hp
    | _ => rfl

end Genie
