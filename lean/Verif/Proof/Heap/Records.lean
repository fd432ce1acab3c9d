import Verif.Model.HeapReaders
import Verif.Proof.Heap.Arrays
/-! # The heap readers build what the value readers return (generated by `tools/gen_heap.py`) -/

set_option linter.unusedVariables false

namespace Genie
open HReader

theorem Version.ge_84_of_88 {v : Version} (h : v.ge .VER_88 = true) : v.ge .VER_84 = true := by
  revert h; cases v <;> decide

theorem EffectCommand.builds : Builds (EffectCommand.build) (EffectCommand.fromBytes) (fun _ => EffectCommand.object) := by
  intro P ver
  unfold EffectCommand.build EffectCommand.fromBytes
  refine Sim.scalar fun _ => ?_
  refine Sim.scalar fun _ => ?_
  refine Sim.scalar fun _ => ?_
  refine Sim.scalar fun _ => ?_
  refine Sim.scalar fun _ => ?_
  apply Sim.retObj rfl
  attrs_tac

theorem Effect.builds : Builds (Effect.build) (Effect.fromBytes) (fun _ => Effect.object) := by
  intro P ver
  unfold Effect.build Effect.fromBytes
  refine Sim.scalar fun _ => ?_
  refine Sim.scalar fun _ => ?_
  refine Sim.object (Builds.readClassArray EffectCommand.builds _ _) fun _ _ _ => ?_
  apply Sim.retObj rfl
  attrs_tac

theorem SoundItem.builds : Builds (SoundItem.build) (SoundItem.fromBytes) (fun _ => SoundItem.object) := by
  intro P ver
  unfold SoundItem.build SoundItem.fromBytes
  refine Sim.scalar fun _ => ?_
  refine Sim.scalar fun _ => ?_
  refine Sim.scalar fun _ => ?_
  refine Sim.scalar fun _ => ?_
  refine Sim.scalar fun _ => ?_
  apply Sim.retObj rfl
  attrs_tac

theorem Sound.builds : Builds (Sound.build) (Sound.fromBytes) (fun _ => Sound.object) := by
  intro P ver
  unfold Sound.build Sound.fromBytes
  refine Sim.scalar fun _ => ?_
  refine Sim.scalar fun _ => ?_
  refine Sim.scalar fun _ => ?_
  refine Sim.scalar fun _ => ?_
  refine Sim.scalar fun _ => ?_
  refine Sim.object (Builds.readClassArray SoundItem.builds _ _) fun _ _ _ => ?_
  apply Sim.retObj rfl
  attrs_tac

theorem PlayerColour.builds : Builds (PlayerColour.build) (PlayerColour.fromBytes) (fun _ => PlayerColour.object) := by
  intro P ver
  unfold PlayerColour.build PlayerColour.fromBytes
  refine Sim.scalar fun _ => ?_
  refine Sim.scalar fun _ => ?_
  refine Sim.scalar fun _ => ?_
  refine Sim.scalar fun _ => ?_
  refine Sim.scalar fun _ => ?_
  refine Sim.scalar fun _ => ?_
  refine Sim.scalar fun _ => ?_
  refine Sim.scalar fun _ => ?_
  refine Sim.scalar fun _ => ?_
  apply Sim.retObj rfl
  attrs_tac

theorem GraphicDelta.builds : Builds (GraphicDelta.build) (GraphicDelta.fromBytes) (fun _ => GraphicDelta.object) := by
  intro P ver
  unfold GraphicDelta.build GraphicDelta.fromBytes
  refine Sim.scalar fun _ => ?_
  refine Sim.scalar fun _ => ?_
  refine Sim.scalar fun _ => ?_
  refine Sim.scalar fun _ => ?_
  refine Sim.scalar fun _ => ?_
  refine Sim.scalar fun _ => ?_
  refine Sim.scalar fun _ => ?_
  apply Sim.retObj rfl
  attrs_tac

theorem GraphicAngleSound.builds : Builds (GraphicAngleSound.build) (GraphicAngleSound.fromBytes) (fun _ => GraphicAngleSound.object) := by
  intro P ver
  unfold GraphicAngleSound.build GraphicAngleSound.fromBytes
  refine Sim.scalar fun _ => ?_
  refine Sim.scalar fun _ => ?_
  refine Sim.scalar fun _ => ?_
  refine Sim.scalar fun _ => ?_
  refine Sim.scalar fun _ => ?_
  refine Sim.scalar fun _ => ?_
  refine Sim.scalar fun _ => ?_
  refine Sim.scalar fun _ => ?_
  refine Sim.scalar fun _ => ?_
  apply Sim.retObj rfl
  attrs_tac

theorem Graphic.builds : Builds (Graphic.build) (Graphic.fromBytes) (fun _ => Graphic.object) := by
  intro P ver
  unfold Graphic.build Graphic.fromBytes
  refine Sim.scalar fun _ => ?_
  refine Sim.scalar fun _ => ?_
  refine Sim.scalar fun _ => ?_
  refine Sim.scalar fun _ => ?_
  refine Sim.scalar fun _ => ?_
  refine Sim.scalar fun _ => ?_
  refine Sim.scalar fun _ => ?_
  refine Sim.scalar fun _ => ?_
  refine Sim.scalar fun _ => ?_
  refine Sim.object (Builds.readInt16Array4) fun _ _ _ => ?_
  refine Sim.scalar fun _ => ?_
  refine Sim.scalar fun _ => ?_
  refine Sim.scalar fun _ => ?_
  refine Sim.scalar fun _ => ?_
  refine Sim.scalar fun _ => ?_
  refine Sim.scalar fun _ => ?_
  refine Sim.scalar fun _ => ?_
  refine Sim.scalar fun _ => ?_
  refine Sim.scalar fun _ => ?_
  refine Sim.scalar fun _ => ?_
  refine Sim.scalar fun _ => ?_
  refine Sim.scalar fun _ => ?_
  refine Sim.scalar fun _ => ?_
  refine Sim.object (Builds.readClassArray GraphicDelta.builds _ _) fun _ _ _ => ?_
  refine Sim.object (Builds.readOrEmpty (Builds.readClassArray GraphicAngleSound.builds _ _) _) fun _ _ _ => ?_
  apply Sim.retObj rfl
  attrs_tac

theorem TerrainPassGraphic.builds : Builds (TerrainPassGraphic.build) (TerrainPassGraphic.fromBytes) (fun _ => TerrainPassGraphic.object) := by
  intro P ver
  unfold TerrainPassGraphic.build TerrainPassGraphic.fromBytes
  refine Sim.scalar fun _ => ?_
  refine Sim.scalar fun _ => ?_
  refine Sim.scalar fun _ => ?_
  refine Sim.scalar fun _ => ?_
  apply Sim.retObj rfl
  attrs_tac

theorem TerrainRestriction.buildsWithCount (terrain_count : Int) : Builds (TerrainRestriction.buildWithCount terrain_count) (TerrainRestriction.fromBytesWithCount terrain_count) (fun _ => TerrainRestriction.object) := by
  intro P ver
  unfold TerrainRestriction.buildWithCount TerrainRestriction.fromBytesWithCount
  refine Sim.object (Builds.readFloatArray _) fun _ _ _ => ?_
  refine Sim.object (Builds.readClassArray TerrainPassGraphic.builds _ _) fun _ _ _ => ?_
  apply Sim.retObj rfl
  attrs_tac

theorem FrameData.builds : Builds (FrameData.build) (FrameData.fromBytes) (fun _ => FrameData.object) := by
  intro P ver
  unfold FrameData.build FrameData.fromBytes
  refine Sim.scalar fun _ => ?_
  refine Sim.scalar fun _ => ?_
  refine Sim.scalar fun _ => ?_
  apply Sim.retObj rfl
  attrs_tac

theorem Terrain.builds : Builds (Terrain.build) (Terrain.fromBytes) (fun _ => Terrain.object) := by
  intro P ver
  unfold Terrain.build Terrain.fromBytes
  refine Sim.scalar fun _ => ?_
  refine Sim.scalar fun _ => ?_
  refine Sim.scalar fun _ => ?_
  refine Sim.scalar fun _ => ?_
  refine Sim.scalar fun _ => ?_
  refine Sim.scalar fun _ => ?_
  refine Sim.scalar fun _ => ?_
  refine Sim.scalar fun _ => ?_
  refine Sim.scalar fun _ => ?_
  refine Sim.scalar fun _ => ?_
  refine Sim.scalar fun _ => ?_
  refine Sim.scalar fun _ => ?_
  refine Sim.scalar fun _ => ?_
  refine Sim.scalar fun _ => ?_
  refine Sim.scalar fun _ => ?_
  refine Sim.object (Builds.readInt8Array3) fun _ _ _ => ?_
  refine Sim.object (Builds.readInt8Array2) fun _ _ _ => ?_
  refine Sim.scalar fun _ => ?_
  refine Sim.scalar fun _ => ?_
  refine Sim.scalar fun _ => ?_
  refine Sim.scalar fun _ => ?_
  refine Sim.scalar fun _ => ?_
  refine Sim.scalar fun _ => ?_
  refine Sim.scalar fun _ => ?_
  refine Sim.scalar fun _ => ?_
  refine Sim.scalar fun _ => ?_
  refine Sim.scalar fun _ => ?_
  refine Sim.scalar fun _ => ?_
  refine Sim.scalar fun _ => ?_
  refine Sim.object (Builds.readClassArray FrameData.builds _ _) fun _ _ _ => ?_
  refine Sim.scalar fun _ => ?_
  refine Sim.object (Builds.readInt16Array2) fun _ _ _ => ?_
  refine Sim.object (Builds.readInt16Array _) fun _ _ _ => ?_
  refine Sim.object (Builds.readInt16Array _) fun _ _ _ => ?_
  refine Sim.object (Builds.readInt16Array _) fun _ _ _ => ?_
  refine Sim.object (Builds.readInt8Array _) fun _ _ _ => ?_
  refine Sim.scalar fun _ => ?_
  refine Sim.scalar fun _ => ?_
  apply Sim.retObj rfl
  attrs_tac

theorem TileSize.builds : Builds (TileSize.build) (TileSize.fromBytes) (fun _ => TileSize.object) := by
  intro P ver
  unfold TileSize.build TileSize.fromBytes
  refine Sim.scalar fun _ => ?_
  refine Sim.scalar fun _ => ?_
  refine Sim.scalar fun _ => ?_
  apply Sim.retObj rfl
  attrs_tac

theorem TerrainBlock.builds : Builds (TerrainBlock.build) (TerrainBlock.fromBytes) (fun _ => TerrainBlock.object) := by
  intro P ver
  unfold TerrainBlock.build TerrainBlock.fromBytes
  refine Sim.scalar fun _ => ?_
  refine Sim.scalar fun _ => ?_
  refine Sim.scalar fun _ => ?_
  refine Sim.scalar fun _ => ?_
  refine Sim.scalar fun _ => ?_
  refine Sim.scalar fun _ => ?_
  refine Sim.object (Builds.readClassArray TileSize.builds _ _) fun _ _ _ => ?_
  refine Sim.scalar fun _ => ?_
  refine Sim.object (Builds.readClassArray Terrain.builds _ _) fun _ _ _ => ?_
  refine Sim.scalar fun _ => ?_
  refine Sim.scalar fun _ => ?_
  refine Sim.scalar fun _ => ?_
  refine Sim.scalar fun _ => ?_
  refine Sim.scalar fun _ => ?_
  refine Sim.scalar fun _ => ?_
  refine Sim.scalar fun _ => ?_
  refine Sim.scalar fun _ => ?_
  refine Sim.scalar fun _ => ?_
  refine Sim.scalar fun _ => ?_
  refine Sim.scalar fun _ => ?_
  refine Sim.scalar fun _ => ?_
  refine Sim.scalar fun _ => ?_
  refine Sim.scalar fun _ => ?_
  refine Sim.scalar fun _ => ?_
  refine Sim.scalar fun _ => ?_
  refine Sim.scalar fun _ => ?_
  refine Sim.scalar fun _ => ?_
  refine Sim.scalar fun _ => ?_
  refine Sim.scalar fun _ => ?_
  refine Sim.scalar fun _ => ?_
  refine Sim.scalar fun _ => ?_
  refine Sim.scalar fun _ => ?_
  refine Sim.scalar fun _ => ?_
  refine Sim.scalar fun _ => ?_
  apply Sim.retObj rfl
  attrs_tac

theorem MapUnit.builds : Builds (MapUnit.build) (MapUnit.fromBytes) (fun _ => MapUnit.object) := by
  intro P ver
  unfold MapUnit.build MapUnit.fromBytes
  refine Sim.scalar fun _ => ?_
  refine Sim.scalar fun _ => ?_
  refine Sim.scalar fun _ => ?_
  refine Sim.scalar fun _ => ?_
  refine Sim.scalar fun _ => ?_
  refine Sim.scalar fun _ => ?_
  refine Sim.scalar fun _ => ?_
  refine Sim.scalar fun _ => ?_
  refine Sim.scalar fun _ => ?_
  refine Sim.scalar fun _ => ?_
  refine Sim.scalar fun _ => ?_
  refine Sim.scalar fun _ => ?_
  refine Sim.scalar fun _ => ?_
  apply Sim.retObj rfl
  attrs_tac

theorem MapTerrain.builds : Builds (MapTerrain.build) (MapTerrain.fromBytes) (fun _ => MapTerrain.object) := by
  intro P ver
  unfold MapTerrain.build MapTerrain.fromBytes
  refine Sim.scalar fun _ => ?_
  refine Sim.scalar fun _ => ?_
  refine Sim.scalar fun _ => ?_
  refine Sim.scalar fun _ => ?_
  refine Sim.scalar fun _ => ?_
  refine Sim.scalar fun _ => ?_
  apply Sim.retObj rfl
  attrs_tac

theorem MapLand.builds : Builds (MapLand.build) (MapLand.fromBytes) (fun _ => MapLand.object) := by
  intro P ver
  unfold MapLand.build MapLand.fromBytes
  refine Sim.scalar fun _ => ?_
  refine Sim.scalar fun _ => ?_
  refine Sim.scalar fun _ => ?_
  refine Sim.scalar fun _ => ?_
  refine Sim.scalar fun _ => ?_
  refine Sim.scalar fun _ => ?_
  refine Sim.scalar fun _ => ?_
  refine Sim.scalar fun _ => ?_
  refine Sim.scalar fun _ => ?_
  refine Sim.scalar fun _ => ?_
  refine Sim.scalar fun _ => ?_
  refine Sim.scalar fun _ => ?_
  refine Sim.scalar fun _ => ?_
  refine Sim.scalar fun _ => ?_
  refine Sim.scalar fun _ => ?_
  apply Sim.retObj rfl
  attrs_tac

theorem MapElevation.builds : Builds (MapElevation.build) (MapElevation.fromBytes) (fun _ => MapElevation.object) := by
  intro P ver
  unfold MapElevation.build MapElevation.fromBytes
  refine Sim.scalar fun _ => ?_
  refine Sim.scalar fun _ => ?_
  refine Sim.scalar fun _ => ?_
  refine Sim.scalar fun _ => ?_
  refine Sim.scalar fun _ => ?_
  refine Sim.scalar fun _ => ?_
  apply Sim.retObj rfl
  attrs_tac

theorem MapInfo.builds : Builds (MapInfo.build) (MapInfo.fromBytes) (fun _ => MapInfo.object) := by
  intro P ver
  unfold MapInfo.build MapInfo.fromBytes
  refine Sim.scalar fun _ => ?_
  refine Sim.scalar fun _ => ?_
  refine Sim.scalar fun _ => ?_
  refine Sim.scalar fun _ => ?_
  refine Sim.scalar fun _ => ?_
  refine Sim.scalar fun _ => ?_
  refine Sim.scalar fun _ => ?_
  refine Sim.scalar fun _ => ?_
  refine Sim.scalar fun _ => ?_
  refine Sim.scalar fun _ => ?_
  refine Sim.scalar fun _ => ?_
  refine Sim.scalar fun _ => ?_
  refine Sim.object (Builds.readClassArray MapLand.builds _ _) fun _ _ _ => ?_
  refine Sim.scalar fun _ => ?_
  refine Sim.scalar fun _ => ?_
  refine Sim.object (Builds.readClassArray MapTerrain.builds _ _) fun _ _ _ => ?_
  refine Sim.scalar fun _ => ?_
  refine Sim.scalar fun _ => ?_
  refine Sim.object (Builds.readClassArray MapUnit.builds _ _) fun _ _ _ => ?_
  refine Sim.scalar fun _ => ?_
  refine Sim.scalar fun _ => ?_
  refine Sim.object (Builds.readClassArray MapElevation.builds _ _) fun _ _ _ => ?_
  apply Sim.retObj rfl
  attrs_tac

theorem RandomMaps.builds : Builds (RandomMaps.build) (RandomMaps.fromBytes) (fun _ => RandomMaps.object) := by
  intro P ver
  unfold RandomMaps.build RandomMaps.fromBytes
  refine Sim.scalar fun _ => ?_
  refine Sim.scalar fun _ => ?_
  refine Sim.object (Builds.readClassArray MapInfo.builds _ _) fun _ _ _ => ?_
  refine Sim.object (Builds.readClassArray MapInfo.builds _ _) fun _ _ _ => ?_
  apply Sim.retObj rfl
  attrs_tac

theorem ResearchResourceCost.builds : Builds (ResearchResourceCost.build) (ResearchResourceCost.fromBytes) (fun _ => ResearchResourceCost.object) := by
  intro P ver
  unfold ResearchResourceCost.build ResearchResourceCost.fromBytes
  refine Sim.scalar fun _ => ?_
  refine Sim.scalar fun _ => ?_
  refine Sim.scalar fun _ => ?_
  apply Sim.retObj rfl
  attrs_tac

theorem ResearchLocation.builds : Builds (ResearchLocation.build) (ResearchLocation.fromBytes) (fun _ => ResearchLocation.object) := by
  intro P ver
  unfold ResearchLocation.build ResearchLocation.fromBytes
  refine Sim.scalar fun _ => ?_
  refine Sim.scalar fun _ => ?_
  refine Sim.scalar fun _ => ?_
  refine Sim.scalar fun _ => ?_
  apply Sim.retObj rfl
  attrs_tac

theorem Tech.builds84 : Builds (Tech.build84) (Tech.fromBytes84) (fun _ => Tech.object) := by
  intro P ver
  unfold Tech.build84 Tech.fromBytes84
  refine Sim.object (Builds.readInt16Array6) fun _ _ _ => ?_
  refine Sim.object (Builds.readClassArray3 ResearchResourceCost.builds) fun _ _ _ => ?_
  refine Sim.scalar fun _ => ?_
  refine Sim.scalar fun _ => ?_
  refine Sim.scalar fun _ => ?_
  refine Sim.scalar fun _ => ?_
  refine Sim.scalar fun _ => ?_
  refine Sim.scalar fun _ => ?_
  refine Sim.scalar fun _ => ?_
  refine Sim.scalar fun _ => ?_
  refine Sim.scalar fun _ => ?_
  refine Sim.scalar fun _ => ?_
  refine Sim.scalar fun _ => ?_
  refine Sim.scalar fun _ => ?_
  refine Sim.scalar fun _ => ?_
  refine Sim.scalar fun _ => ?_
  refine Sim.scalar fun _ => ?_
  refine Sim.scalar fun _ => ?_
  apply Sim.allocObj
  · attrs_tac
  intro _ _
  apply Sim.allocList
  · items_tac
  intro _ _
  apply Sim.retObj rfl
  attrs_tac

theorem Tech.builds88 : Builds (Tech.build88) (Tech.fromBytes88) (fun _ => Tech.object) := by
  intro P ver
  unfold Tech.build88 Tech.fromBytes88
  refine Sim.object (Builds.readInt16Array6) fun _ _ _ => ?_
  refine Sim.object (Builds.readClassArray3 ResearchResourceCost.builds) fun _ _ _ => ?_
  refine Sim.scalar fun _ => ?_
  refine Sim.scalar fun _ => ?_
  refine Sim.scalar fun _ => ?_
  refine Sim.scalar fun _ => ?_
  refine Sim.scalar fun _ => ?_
  refine Sim.scalar fun _ => ?_
  refine Sim.scalar fun _ => ?_
  refine Sim.scalar fun _ => ?_
  refine Sim.scalar fun _ => ?_
  refine Sim.scalar fun _ => ?_
  refine Sim.scalar fun _ => ?_
  refine Sim.scalar fun _ => ?_
  refine Sim.scalar fun _ => ?_
  refine Sim.object (Builds.readClassArray ResearchLocation.builds _ _) fun _ _ _ => ?_
  apply Sim.retObj rfl
  attrs_tac

theorem Tech.builds : Builds Tech.build Tech.fromBytes (fun _ => Tech.object) := by
  intro P ver
  unfold Tech.build Tech.fromBytes
  refine Sim.version ?_
  exact Sim.ite (fun _ => Tech.builds88 P ver) fun _ => Tech.builds84 P ver

theorem Common.builds : Builds (Common.build) (Common.fromBytes) (fun _ => Common.object) := by
  intro P ver
  unfold Common.build Common.fromBytes
  refine Sim.scalar fun _ => ?_
  refine Sim.object (Builds.readInt32Array10) fun _ _ _ => ?_
  refine Sim.object (Builds.readInt32Array10) fun _ _ _ => ?_
  apply Sim.retObj rfl
  attrs_tac

theorem TechTreeAge.builds : Builds (TechTreeAge.build) (TechTreeAge.fromBytes) (fun _ => TechTreeAge.object) := by
  intro P ver
  unfold TechTreeAge.build TechTreeAge.fromBytes
  refine Sim.scalar fun _ => ?_
  refine Sim.scalar fun _ => ?_
  refine Sim.scalar fun _ => ?_
  refine Sim.object (Builds.readInt32Array _) fun _ _ _ => ?_
  refine Sim.scalar fun _ => ?_
  refine Sim.object (Builds.readInt32Array _) fun _ _ _ => ?_
  refine Sim.scalar fun _ => ?_
  refine Sim.object (Builds.readInt32Array _) fun _ _ _ => ?_
  refine Sim.object (Builds.readClass Common.builds) fun _ _ _ => ?_
  refine Sim.scalar fun _ => ?_
  refine Sim.object (Builds.readInt8Array10) fun _ _ _ => ?_
  refine Sim.object (Builds.readInt8Array10) fun _ _ _ => ?_
  refine Sim.scalar fun _ => ?_
  refine Sim.scalar fun _ => ?_
  apply Sim.retObj rfl
  attrs_tac

theorem BuildingConnection.builds : Builds (BuildingConnection.build) (BuildingConnection.fromBytes) (fun _ => BuildingConnection.object) := by
  intro P ver
  unfold BuildingConnection.build BuildingConnection.fromBytes
  refine Sim.scalar fun _ => ?_
  refine Sim.scalar fun _ => ?_
  refine Sim.scalar fun _ => ?_
  refine Sim.object (Builds.readInt32Array _) fun _ _ _ => ?_
  refine Sim.scalar fun _ => ?_
  refine Sim.object (Builds.readInt32Array _) fun _ _ _ => ?_
  refine Sim.scalar fun _ => ?_
  refine Sim.object (Builds.readInt32Array _) fun _ _ _ => ?_
  refine Sim.object (Builds.readClass Common.builds) fun _ _ _ => ?_
  refine Sim.scalar fun _ => ?_
  refine Sim.object (Builds.readInt8Array5) fun _ _ _ => ?_
  refine Sim.object (Builds.readInt8Array5) fun _ _ _ => ?_
  refine Sim.scalar fun _ => ?_
  refine Sim.scalar fun _ => ?_
  apply Sim.retObj rfl
  attrs_tac

theorem UnitConnection.builds : Builds (UnitConnection.build) (UnitConnection.fromBytes) (fun _ => UnitConnection.object) := by
  intro P ver
  unfold UnitConnection.build UnitConnection.fromBytes
  refine Sim.scalar fun _ => ?_
  refine Sim.scalar fun _ => ?_
  refine Sim.scalar fun _ => ?_
  refine Sim.object (Builds.readClass Common.builds) fun _ _ _ => ?_
  refine Sim.scalar fun _ => ?_
  refine Sim.scalar fun _ => ?_
  refine Sim.object (Builds.readInt32Array _) fun _ _ _ => ?_
  refine Sim.scalar fun _ => ?_
  refine Sim.scalar fun _ => ?_
  refine Sim.scalar fun _ => ?_
  refine Sim.scalar fun _ => ?_
  apply Sim.retObj rfl
  attrs_tac

theorem ResearchConnection.builds : Builds (ResearchConnection.build) (ResearchConnection.fromBytes) (fun _ => ResearchConnection.object) := by
  intro P ver
  unfold ResearchConnection.build ResearchConnection.fromBytes
  refine Sim.scalar fun _ => ?_
  refine Sim.scalar fun _ => ?_
  refine Sim.scalar fun _ => ?_
  refine Sim.scalar fun _ => ?_
  refine Sim.object (Builds.readInt32Array _) fun _ _ _ => ?_
  refine Sim.scalar fun _ => ?_
  refine Sim.object (Builds.readInt32Array _) fun _ _ _ => ?_
  refine Sim.scalar fun _ => ?_
  refine Sim.object (Builds.readInt32Array _) fun _ _ _ => ?_
  refine Sim.object (Builds.readClass Common.builds) fun _ _ _ => ?_
  refine Sim.scalar fun _ => ?_
  refine Sim.scalar fun _ => ?_
  refine Sim.scalar fun _ => ?_
  apply Sim.retObj rfl
  attrs_tac

theorem TechTree.builds : Builds (TechTree.build) (TechTree.fromBytes) (fun _ => TechTree.object) := by
  intro P ver
  unfold TechTree.build TechTree.fromBytes
  refine Sim.scalar fun _ => ?_
  refine Sim.scalar fun _ => ?_
  refine Sim.scalar fun _ => ?_
  refine Sim.scalar fun _ => ?_
  refine Sim.scalar fun _ => ?_
  refine Sim.object (Builds.readClassArray TechTreeAge.builds _ _) fun _ _ _ => ?_
  refine Sim.object (Builds.readClassArray BuildingConnection.builds _ _) fun _ _ _ => ?_
  refine Sim.object (Builds.readClassArray UnitConnection.builds _ _) fun _ _ _ => ?_
  refine Sim.object (Builds.readClassArray ResearchConnection.builds _ _) fun _ _ _ => ?_
  apply Sim.retObj rfl
  attrs_tac

theorem Task.builds84 : Builds (Task.build84) (Task.fromBytes84) (fun _ => Task.object) := by
  intro P ver
  unfold Task.build84 Task.fromBytes84
  refine Sim.scalar fun _ => ?_
  refine Sim.popInt fun _ _ => ?_
  refine Sim.popInt fun _ _ => ?_
  refine Sim.popInt fun _ _ => ?_
  refine Sim.popInt fun _ _ => ?_
  refine Sim.popInt fun _ _ => ?_
  refine Sim.popInt fun _ _ => ?_
  refine Sim.popInt fun _ _ => ?_
  refine Sim.popInt fun _ _ => ?_
  refine Sim.popInt fun _ _ => ?_
  refine Sim.popInt fun _ _ => ?_
  refine Sim.popInt fun _ _ => ?_
  refine Sim.popFloat fun _ _ => ?_
  refine Sim.popFloat fun _ _ => ?_
  refine Sim.popFloat fun _ _ => ?_
  refine Sim.popInt fun _ _ => ?_
  refine Sim.popFloat fun _ _ => ?_
  refine Sim.popInt fun _ _ => ?_
  refine Sim.popInt fun _ _ => ?_
  refine Sim.popInt fun _ _ => ?_
  refine Sim.popInt fun _ _ => ?_
  refine Sim.popInt fun _ _ => ?_
  refine Sim.popInt fun _ _ => ?_
  refine Sim.popInt fun _ _ => ?_
  refine Sim.popInt fun _ _ => ?_
  refine Sim.popInt fun _ _ => ?_
  refine Sim.popInt fun _ _ => ?_
  refine Sim.popInt fun _ _ => ?_
  refine Sim.popInt fun _ _ => ?_
  refine Sim.popInt fun _ _ => ?_
  refine Sim.popInt fun _ _ => ?_
  refine Sim.popInt fun _ _ => ?_
  refine Sim.popDone ?_
  apply Sim.retObj rfl
  attrs_tac

theorem Task.builds88 : Builds (Task.build88) (Task.fromBytes88) (fun _ => Task.object) := by
  intro P ver
  unfold Task.build88 Task.fromBytes88
  refine Sim.scalar fun _ => ?_
  refine Sim.popInt fun _ _ => ?_
  refine Sim.popInt fun _ _ => ?_
  refine Sim.popInt fun _ _ => ?_
  refine Sim.popInt fun _ _ => ?_
  refine Sim.popInt fun _ _ => ?_
  refine Sim.popInt fun _ _ => ?_
  refine Sim.popInt fun _ _ => ?_
  refine Sim.popInt fun _ _ => ?_
  refine Sim.popInt fun _ _ => ?_
  refine Sim.popInt fun _ _ => ?_
  refine Sim.popInt fun _ _ => ?_
  refine Sim.popFloat fun _ _ => ?_
  refine Sim.popFloat fun _ _ => ?_
  refine Sim.popFloat fun _ _ => ?_
  refine Sim.popInt fun _ _ => ?_
  refine Sim.popFloat fun _ _ => ?_
  refine Sim.popInt fun _ _ => ?_
  refine Sim.popInt fun _ _ => ?_
  refine Sim.popInt fun _ _ => ?_
  refine Sim.popInt fun _ _ => ?_
  refine Sim.popInt fun _ _ => ?_
  refine Sim.popInt fun _ _ => ?_
  refine Sim.popInt fun _ _ => ?_
  refine Sim.popInt fun _ _ => ?_
  refine Sim.popInt fun _ _ => ?_
  refine Sim.popInt fun _ _ => ?_
  refine Sim.popInt fun _ _ => ?_
  refine Sim.popInt fun _ _ => ?_
  refine Sim.popInt fun _ _ => ?_
  refine Sim.popInt fun _ _ => ?_
  refine Sim.popInt fun _ _ => ?_
  refine Sim.popInt fun _ _ => ?_
  refine Sim.popDone ?_
  apply Sim.retObj rfl
  attrs_tac

theorem Task.builds : Builds Task.build Task.fromBytes (fun _ => Task.object) := by
  intro P ver
  unfold Task.build Task.fromBytes
  refine Sim.version ?_
  exact Sim.ite (fun _ => Task.builds88 P ver) fun _ => Task.builds84 P ver

theorem ResourceStorage.builds : Builds (ResourceStorage.build) (ResourceStorage.fromBytes) (fun _ => ResourceStorage.object) := by
  intro P ver
  unfold ResourceStorage.build ResourceStorage.fromBytes
  refine Sim.scalar fun _ => ?_
  refine Sim.popInt fun _ _ => ?_
  refine Sim.popFloat fun _ _ => ?_
  refine Sim.popInt fun _ _ => ?_
  refine Sim.popDone ?_
  apply Sim.retObj rfl
  attrs_tac

theorem DamageGraphic.builds : Builds (DamageGraphic.build) (DamageGraphic.fromBytes) (fun _ => DamageGraphic.object) := by
  intro P ver
  unfold DamageGraphic.build DamageGraphic.fromBytes
  refine Sim.scalar fun _ => ?_
  refine Sim.popInt fun _ _ => ?_
  refine Sim.popInt fun _ _ => ?_
  refine Sim.popInt fun _ _ => ?_
  refine Sim.popDone ?_
  apply Sim.retObj rfl
  attrs_tac

theorem DeadFish.builds : Builds (DeadFish.build) (DeadFish.fromBytes) (fun _ => DeadFish.object) := by
  intro P ver
  unfold DeadFish.build DeadFish.fromBytes
  refine Sim.scalar fun _ => ?_
  refine Sim.popInt fun _ _ => ?_
  refine Sim.popInt fun _ _ => ?_
  refine Sim.popFloat fun _ _ => ?_
  refine Sim.popInt fun _ _ => ?_
  refine Sim.popInt fun _ _ => ?_
  refine Sim.popInt fun _ _ => ?_
  refine Sim.popFloat fun _ _ => ?_
  refine Sim.popInt fun _ _ => ?_
  refine Sim.popFloat fun _ _ => ?_
  refine Sim.popFloat fun _ _ => ?_
  refine Sim.popFloat fun _ _ => ?_
  refine Sim.popFloat fun _ _ => ?_
  refine Sim.popFloat fun _ _ => ?_
  refine Sim.popFloat fun _ _ => ?_
  refine Sim.popDone ?_
  apply Sim.retObj rfl
  attrs_tac

theorem Bird.builds : Builds (Bird.build) (Bird.fromBytes) (fun _ => Bird.object) := by
  intro P ver
  unfold Bird.build Bird.fromBytes
  refine Sim.scalar fun _ => ?_
  refine Sim.scalar fun _ => ?_
  refine Sim.scalar fun _ => ?_
  refine Sim.version ?_
  refine Sim.scalar fun _ => ?_
  refine Sim.object (Builds.readInt16Array _) fun _ _ _ => ?_
  refine Sim.scalar fun _ => ?_
  refine Sim.scalar fun _ => ?_
  refine Sim.scalar fun _ => ?_
  refine Sim.scalar fun _ => ?_
  refine Sim.scalar fun _ => ?_
  refine Sim.scalar fun _ => ?_
  refine Sim.scalar fun _ => ?_
  refine Sim.object (Builds.readClassArray Task.builds _ _) fun _ _ _ => ?_
  apply Sim.retObj rfl
  attrs_tac

theorem AttackOrArmor.builds : Builds (AttackOrArmor.build) (AttackOrArmor.fromBytes) (fun _ => AttackOrArmor.object) := by
  intro P ver
  unfold AttackOrArmor.build AttackOrArmor.fromBytes
  refine Sim.scalar fun _ => ?_
  refine Sim.popInt fun _ _ => ?_
  refine Sim.popInt fun _ _ => ?_
  refine Sim.popDone ?_
  apply Sim.retObj rfl
  attrs_tac

theorem Type50.builds : Builds (Type50.build) (Type50.fromBytes) (fun _ => Type50.object) := by
  intro P ver
  unfold Type50.build Type50.fromBytes
  refine Sim.scalar fun _ => ?_
  refine Sim.scalar fun _ => ?_
  refine Sim.object (Builds.readClassArray AttackOrArmor.builds _ _) fun _ _ _ => ?_
  refine Sim.scalar fun _ => ?_
  refine Sim.object (Builds.readClassArray AttackOrArmor.builds _ _) fun _ _ _ => ?_
  refine Sim.scalar fun _ => ?_
  refine Sim.scalar fun _ => ?_
  refine Sim.scalar fun _ => ?_
  refine Sim.scalar fun _ => ?_
  refine Sim.scalar fun _ => ?_
  refine Sim.scalar fun _ => ?_
  refine Sim.scalar fun _ => ?_
  refine Sim.scalar fun _ => ?_
  refine Sim.scalar fun _ => ?_
  refine Sim.object (Builds.readFloatArray3) fun _ _ _ => ?_
  refine Sim.scalar fun _ => ?_
  refine Sim.scalar fun _ => ?_
  refine Sim.scalar fun _ => ?_
  refine Sim.scalar fun _ => ?_
  refine Sim.scalar fun _ => ?_
  refine Sim.scalar fun _ => ?_
  refine Sim.scalar fun _ => ?_
  refine Sim.scalar fun _ => ?_
  refine Sim.scalar fun _ => ?_
  refine Sim.version ?_
  refine Sim.scalar fun _ => ?_
  refine Sim.scalar fun _ => ?_
  refine Sim.scalar fun _ => ?_
  refine Sim.scalar fun _ => ?_
  refine Sim.scalar fun _ => ?_
  apply Sim.retObj rfl
  attrs_tac

theorem Projectile.builds : Builds (Projectile.build) (Projectile.fromBytes) (fun _ => Projectile.object) := by
  intro P ver
  unfold Projectile.build Projectile.fromBytes
  refine Sim.scalar fun _ => ?_
  refine Sim.popInt fun _ _ => ?_
  refine Sim.popInt fun _ _ => ?_
  refine Sim.popInt fun _ _ => ?_
  refine Sim.popInt fun _ _ => ?_
  refine Sim.popInt fun _ _ => ?_
  refine Sim.popFloat fun _ _ => ?_
  refine Sim.popDone ?_
  apply Sim.retObj rfl
  attrs_tac

theorem ResourceCost.builds : Builds (ResourceCost.build) (ResourceCost.fromBytes) (fun _ => ResourceCost.object) := by
  intro P ver
  unfold ResourceCost.build ResourceCost.fromBytes
  refine Sim.scalar fun _ => ?_
  refine Sim.popInt fun _ _ => ?_
  refine Sim.popInt fun _ _ => ?_
  refine Sim.popInt fun _ _ => ?_
  refine Sim.popDone ?_
  apply Sim.retObj rfl
  attrs_tac

theorem TrainLocation.builds84 : Builds (TrainLocation.build84) (TrainLocation.fromBytes84) (fun _ => TrainLocation.object) := by
  intro P ver
  unfold TrainLocation.build84 TrainLocation.fromBytes84
  refine Sim.scalar fun _ => ?_
  refine Sim.popInt fun _ _ => ?_
  refine Sim.popInt fun _ _ => ?_
  refine Sim.popInt fun _ _ => ?_
  refine Sim.popDone ?_
  apply Sim.retObj rfl
  attrs_tac

theorem TrainLocation.builds88 : Builds (TrainLocation.build88) (TrainLocation.fromBytes88) (fun _ => TrainLocation.object) := by
  intro P ver
  unfold TrainLocation.build88 TrainLocation.fromBytes88
  refine Sim.scalar fun _ => ?_
  refine Sim.popInt fun _ _ => ?_
  refine Sim.popInt fun _ _ => ?_
  refine Sim.popInt fun _ _ => ?_
  refine Sim.popInt fun _ _ => ?_
  refine Sim.popDone ?_
  apply Sim.retObj rfl
  attrs_tac

theorem TrainLocation.builds : Builds TrainLocation.build TrainLocation.fromBytes (fun _ => TrainLocation.object) := by
  intro P ver
  unfold TrainLocation.build TrainLocation.fromBytes
  refine Sim.version ?_
  exact Sim.ite (fun _ => TrainLocation.builds88 P ver) fun _ => TrainLocation.builds84 P ver

theorem Creatable.builds78 : Builds (Creatable.build78) (Creatable.fromBytes78) (fun _ => Creatable.object true) := by
  intro P ver
  unfold Creatable.build78 Creatable.fromBytes78
  refine Sim.object (Builds.readClassArray3 ResourceCost.builds) fun _ _ _ => ?_
  refine Sim.scalar fun _ => ?_
  refine Sim.popInt fun _ _ => ?_
  refine Sim.popInt fun _ _ => ?_
  refine Sim.popInt fun _ _ => ?_
  refine Sim.popFloat fun _ _ => ?_
  refine Sim.popFloat fun _ _ => ?_
  refine Sim.popInt fun _ _ => ?_
  refine Sim.popInt fun _ _ => ?_
  refine Sim.popInt fun _ _ => ?_
  refine Sim.popInt fun _ _ => ?_
  refine Sim.popInt fun _ _ => ?_
  refine Sim.popInt fun _ _ => ?_
  refine Sim.popFloat fun _ _ => ?_
  refine Sim.popFloat fun _ _ => ?_
  refine Sim.popInt fun _ _ => ?_
  refine Sim.popInt fun _ _ => ?_
  refine Sim.popFloat fun _ _ => ?_
  refine Sim.popFloat fun _ _ => ?_
  refine Sim.popFloat fun _ _ => ?_
  refine Sim.popFloat fun _ _ => ?_
  refine Sim.popInt fun _ _ => ?_
  refine Sim.popFloat fun _ _ => ?_
  refine Sim.popFloat fun _ _ => ?_
  refine Sim.popFloat fun _ _ => ?_
  refine Sim.popInt fun _ _ => ?_
  refine Sim.popInt fun _ _ => ?_
  refine Sim.popInt fun _ _ => ?_
  refine Sim.popInt fun _ _ => ?_
  refine Sim.popDone ?_
  apply Sim.allocObj
  · attrs_tac
  intro _ _
  apply Sim.allocList
  · items_tac
  intro _ _
  apply Sim.allocTuple
  · items_tac
  intro _ _
  apply Sim.retObj rfl
  attrs_tac

theorem Creatable.builds84 : Builds (Creatable.build84) (Creatable.fromBytes84) (fun _ => Creatable.object false) := by
  intro P ver
  unfold Creatable.build84 Creatable.fromBytes84
  refine Sim.object (Builds.readClassArray3 ResourceCost.builds) fun _ _ _ => ?_
  refine Sim.scalar fun _ => ?_
  refine Sim.popInt fun _ _ => ?_
  refine Sim.popInt fun _ _ => ?_
  refine Sim.popInt fun _ _ => ?_
  refine Sim.popFloat fun _ _ => ?_
  refine Sim.popFloat fun _ _ => ?_
  refine Sim.popInt fun _ _ => ?_
  refine Sim.popInt fun _ _ => ?_
  refine Sim.popInt fun _ _ => ?_
  refine Sim.popInt fun _ _ => ?_
  refine Sim.popInt fun _ _ => ?_
  refine Sim.popInt fun _ _ => ?_
  refine Sim.popInt fun _ _ => ?_
  refine Sim.popFloat fun _ _ => ?_
  refine Sim.popFloat fun _ _ => ?_
  refine Sim.popInt fun _ _ => ?_
  refine Sim.popInt fun _ _ => ?_
  refine Sim.popInt fun _ _ => ?_
  refine Sim.popInt fun _ _ => ?_
  refine Sim.popInt fun _ _ => ?_
  refine Sim.popFloat fun _ _ => ?_
  refine Sim.popInt fun _ _ => ?_
  refine Sim.popInt fun _ _ => ?_
  refine Sim.popInt fun _ _ => ?_
  refine Sim.popInt fun _ _ => ?_
  refine Sim.popFloat fun _ _ => ?_
  refine Sim.popFloat fun _ _ => ?_
  refine Sim.popFloat fun _ _ => ?_
  refine Sim.popFloat fun _ _ => ?_
  refine Sim.popInt fun _ _ => ?_
  refine Sim.popFloat fun _ _ => ?_
  refine Sim.popFloat fun _ _ => ?_
  refine Sim.popFloat fun _ _ => ?_
  refine Sim.popInt fun _ _ => ?_
  refine Sim.popInt fun _ _ => ?_
  refine Sim.popInt fun _ _ => ?_
  refine Sim.popInt fun _ _ => ?_
  refine Sim.popDone ?_
  apply Sim.allocObj
  · attrs_tac
  intro _ _
  apply Sim.allocList
  · items_tac
  intro _ _
  apply Sim.allocTuple
  · items_tac
  intro _ _
  apply Sim.retObj rfl
  attrs_tac

theorem Creatable.builds88 : Builds (Creatable.build88) (Creatable.fromBytes88) (fun _ => Creatable.object false) := by
  intro P ver
  unfold Creatable.build88 Creatable.fromBytes88
  refine Sim.object (Builds.readClassArray3 ResourceCost.builds) fun _ _ _ => ?_
  refine Sim.scalar fun _ => ?_
  refine Sim.object (Builds.readClassArray TrainLocation.builds _ _) fun _ _ _ => ?_
  refine Sim.scalar fun _ => ?_
  refine Sim.popFloat fun _ _ => ?_
  refine Sim.popFloat fun _ _ => ?_
  refine Sim.popInt fun _ _ => ?_
  refine Sim.popInt fun _ _ => ?_
  refine Sim.popInt fun _ _ => ?_
  refine Sim.popInt fun _ _ => ?_
  refine Sim.popInt fun _ _ => ?_
  refine Sim.popInt fun _ _ => ?_
  refine Sim.popInt fun _ _ => ?_
  refine Sim.popFloat fun _ _ => ?_
  refine Sim.popFloat fun _ _ => ?_
  refine Sim.popInt fun _ _ => ?_
  refine Sim.popInt fun _ _ => ?_
  refine Sim.popInt fun _ _ => ?_
  refine Sim.popInt fun _ _ => ?_
  refine Sim.popInt fun _ _ => ?_
  refine Sim.popFloat fun _ _ => ?_
  refine Sim.popInt fun _ _ => ?_
  refine Sim.popInt fun _ _ => ?_
  refine Sim.popInt fun _ _ => ?_
  refine Sim.popInt fun _ _ => ?_
  refine Sim.popFloat fun _ _ => ?_
  refine Sim.popFloat fun _ _ => ?_
  refine Sim.popFloat fun _ _ => ?_
  refine Sim.popFloat fun _ _ => ?_
  refine Sim.popInt fun _ _ => ?_
  refine Sim.popFloat fun _ _ => ?_
  refine Sim.popFloat fun _ _ => ?_
  refine Sim.popFloat fun _ _ => ?_
  refine Sim.popInt fun _ _ => ?_
  refine Sim.popInt fun _ _ => ?_
  refine Sim.popInt fun _ _ => ?_
  refine Sim.popInt fun _ _ => ?_
  refine Sim.popDone ?_
  apply Sim.allocTuple
  · items_tac
  intro _ _
  apply Sim.retObj rfl
  attrs_tac

theorem Creatable.builds : Builds Creatable.build Creatable.fromBytes (fun ver => Creatable.object (!ver.ge .VER_84)) := by
  intro P ver
  unfold Creatable.build Creatable.fromBytes
  refine Sim.version ?_
  dsimp only
  refine Sim.ite (fun h => ?_) fun h => ?_
  · rw [Version.ge_84_of_88 h]; exact Creatable.builds88 P ver
  · refine Sim.ite (fun h' => ?_) fun h' => ?_
    · rw [show ver.ge .VER_84 = true from h']; exact Creatable.builds84 P ver
    · rw [show ver.ge .VER_84 = false by simpa using h']; exact Creatable.builds78 P ver

theorem BuildingAnnex.builds : Builds (BuildingAnnex.build) (BuildingAnnex.fromBytes) (fun _ => BuildingAnnex.object) := by
  intro P ver
  unfold BuildingAnnex.build BuildingAnnex.fromBytes
  refine Sim.scalar fun _ => ?_
  refine Sim.popInt fun _ _ => ?_
  refine Sim.popFloat fun _ _ => ?_
  refine Sim.popFloat fun _ _ => ?_
  refine Sim.popDone ?_
  apply Sim.retObj rfl
  attrs_tac

theorem Building.builds : Builds (Building.build) (Building.fromBytes) (fun _ => Building.object) := by
  intro P ver
  unfold Building.build Building.fromBytes
  refine Sim.scalar fun _ => ?_
  refine Sim.popInt fun _ _ => ?_
  refine Sim.popInt fun _ _ => ?_
  refine Sim.popInt fun _ _ => ?_
  refine Sim.popInt fun _ _ => ?_
  refine Sim.popInt fun _ _ => ?_
  refine Sim.popInt fun _ _ => ?_
  refine Sim.popInt fun _ _ => ?_
  refine Sim.popInt fun _ _ => ?_
  refine Sim.popInt fun _ _ => ?_
  refine Sim.popInt fun _ _ => ?_
  refine Sim.popInt fun _ _ => ?_
  refine Sim.popInt fun _ _ => ?_
  refine Sim.popInt fun _ _ => ?_
  refine Sim.popInt fun _ _ => ?_
  refine Sim.popDone ?_
  refine Sim.object (Builds.readClassArray4 BuildingAnnex.builds) fun _ _ _ => ?_
  refine Sim.scalar fun _ => ?_
  refine Sim.popInt fun _ _ => ?_
  refine Sim.popInt fun _ _ => ?_
  refine Sim.popInt fun _ _ => ?_
  refine Sim.popInt fun _ _ => ?_
  refine Sim.popInt fun _ _ => ?_
  refine Sim.popInt fun _ _ => ?_
  refine Sim.popInt fun _ _ => ?_
  refine Sim.popFloat fun _ _ => ?_
  refine Sim.popFloat fun _ _ => ?_
  refine Sim.popInt fun _ _ => ?_
  refine Sim.popInt fun _ _ => ?_
  refine Sim.popInt fun _ _ => ?_
  refine Sim.popInt fun _ _ => ?_
  refine Sim.popInt fun _ _ => ?_
  refine Sim.popInt fun _ _ => ?_
  refine Sim.popInt fun _ _ => ?_
  refine Sim.popDone ?_
  apply Sim.allocTuple
  · items_tac
  intro _ _
  apply Sim.retObj rfl
  attrs_tac

theorem UnitHeaders.builds : Builds UnitHeaders.build UnitHeaders.fromBytes (fun _ => UnitHeaders.object) := by
  intro P ver
  unfold UnitHeaders.build UnitHeaders.fromBytes
  refine Sim.scalar fun _ => ?_
  refine Sim.ite (fun _ => ?_) fun _ => ?_
  · refine Sim.scalar fun _ => ?_
    refine Sim.object (Builds.readClassArray Task.builds _ _) fun _ _ _ => ?_
    apply Sim.retObj rfl
    attrs_tac
  · apply Sim.retObj rfl
    attrs_tac

end Genie
