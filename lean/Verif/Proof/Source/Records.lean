import Verif.Proof.Source.Rules
/-!
# The source of the `from_bytes` functions does what the model says (generated by `tools/gen_source_readers.py`)
-/

set_option linter.unusedVariables false

namespace Genie.Src

/-- `EffectCommand.from_bytes` — `/repo/src/genieutils/effect.py:16-23`. -/
theorem EffectCommand_from_bytes : ReadsAs 4 n!"EffectCommand" EffectCommand.build := by
  intro n hn
  call_fun
  unfold EffectCommand.build
  refine Same.bind (read_int_8 (by omega)) fun _ => ?_
  peel
  refine Same.bind (read_int_16 (by omega)) fun _ => ?_
  peel
  refine Same.bind (read_int_16 (by omega)) fun _ => ?_
  peel
  refine Same.bind (read_int_16 (by omega)) fun _ => ?_
  peel
  refine Same.bind (read_float (by omega)) fun _ => ?_
  peel
  exact (Same.allocH (by rfl)).tail _

/-- `Effect.from_bytes` — `/repo/src/genieutils/effect.py:41-48`. -/
theorem Effect_from_bytes : ReadsAs 6 n!"Effect" Effect.build := by
  intro n hn
  call_fun
  unfold Effect.build
  refine Same.bind (read_debug_string (by omega)) fun _ => ?_
  peel
  refine Same.bind (read_int_16 (by omega)) fun _ => ?_
  peel
  refine Same.bind (read_class_array EffectCommand_from_bytes (by omega) (by omega) _ _) fun _ => ?_
  peel
  exact (Same.allocH (by rfl)).tail _

/-- `SoundItem.from_bytes` — `/repo/src/genieutils/sound.py:16-23`. -/
theorem SoundItem_from_bytes : ReadsAs 4 n!"SoundItem" SoundItem.build := by
  intro n hn
  call_fun
  unfold SoundItem.build
  refine Same.bind (read_debug_string (by omega)) fun _ => ?_
  peel
  refine Same.bind (read_int_32 (by omega)) fun _ => ?_
  peel
  refine Same.bind (read_int_16 (by omega)) fun _ => ?_
  peel
  refine Same.bind (read_int_16 (by omega)) fun _ => ?_
  peel
  refine Same.bind (read_int_16 (by omega)) fun _ => ?_
  peel
  exact (Same.allocH (by rfl)).tail _

/-- `Sound.from_bytes` — `/repo/src/genieutils/sound.py:44-57`. -/
theorem Sound_from_bytes : ReadsAs 6 n!"Sound" Sound.build := by
  intro n hn
  call_fun
  unfold Sound.build
  refine Same.bind (read_int_16 (by omega)) fun _ => ?_
  peel
  refine Same.bind (read_int_16 (by omega)) fun _ => ?_
  peel
  refine Same.bind (read_int_16 (by omega)) fun _ => ?_
  peel
  refine Same.bind (read_int_32 (by omega)) fun _ => ?_
  peel
  refine Same.bind (read_int_16 (by omega)) fun _ => ?_
  peel
  refine Same.bind (read_class_array SoundItem_from_bytes (by omega) (by omega) _ _) fun _ => ?_
  peel
  exact (Same.allocH (by rfl)).tail _

/-- `PlayerColour.from_bytes` — `/repo/src/genieutils/playercolour.py:20-31`. -/
theorem PlayerColour_from_bytes : ReadsAs 4 n!"PlayerColour" PlayerColour.build := by
  intro n hn
  call_fun
  unfold PlayerColour.build
  refine Same.bind (read_int_32 (by omega)) fun _ => ?_
  peel
  refine Same.bind (read_int_32 (by omega)) fun _ => ?_
  peel
  refine Same.bind (read_int_32 (by omega)) fun _ => ?_
  peel
  refine Same.bind (read_int_32 (by omega)) fun _ => ?_
  peel
  refine Same.bind (read_int_32 (by omega)) fun _ => ?_
  peel
  refine Same.bind (read_int_32 (by omega)) fun _ => ?_
  peel
  refine Same.bind (read_int_32 (by omega)) fun _ => ?_
  peel
  refine Same.bind (read_int_32 (by omega)) fun _ => ?_
  peel
  refine Same.bind (read_int_32 (by omega)) fun _ => ?_
  peel
  exact (Same.allocH (by rfl)).tail _

/-- `GraphicDelta.from_bytes` — `/repo/src/genieutils/graphic.py:18-27`. -/
theorem GraphicDelta_from_bytes : ReadsAs 4 n!"GraphicDelta" GraphicDelta.build := by
  intro n hn
  call_fun
  unfold GraphicDelta.build
  refine Same.bind (read_int_16 (by omega)) fun _ => ?_
  peel
  refine Same.bind (read_int_16 (by omega)) fun _ => ?_
  peel
  refine Same.bind (read_int_32 (by omega)) fun _ => ?_
  peel
  refine Same.bind (read_int_16 (by omega)) fun _ => ?_
  peel
  refine Same.bind (read_int_16 (by omega)) fun _ => ?_
  peel
  refine Same.bind (read_int_16 (by omega)) fun _ => ?_
  peel
  refine Same.bind (read_int_16 (by omega)) fun _ => ?_
  peel
  exact (Same.allocH (by rfl)).tail _

/-- `GraphicAngleSound.from_bytes` — `/repo/src/genieutils/graphic.py:54-65`. -/
theorem GraphicAngleSound_from_bytes : ReadsAs 4 n!"GraphicAngleSound" GraphicAngleSound.build := by
  intro n hn
  call_fun
  unfold GraphicAngleSound.build
  refine Same.bind (read_int_16 (by omega)) fun _ => ?_
  peel
  refine Same.bind (read_int_16 (by omega)) fun _ => ?_
  peel
  refine Same.bind (read_int_32 (by omega)) fun _ => ?_
  peel
  refine Same.bind (read_int_16 (by omega)) fun _ => ?_
  peel
  refine Same.bind (read_int_16 (by omega)) fun _ => ?_
  peel
  refine Same.bind (read_int_32 (by omega)) fun _ => ?_
  peel
  refine Same.bind (read_int_16 (by omega)) fun _ => ?_
  peel
  refine Same.bind (read_int_16 (by omega)) fun _ => ?_
  peel
  refine Same.bind (read_int_32 (by omega)) fun _ => ?_
  peel
  exact (Same.allocH (by rfl)).tail _

/-- `Graphic.from_bytes` — `/repo/src/genieutils/graphic.py:109-160`. -/
theorem Graphic_from_bytes : ReadsAs 6 n!"Graphic" Graphic.build := by
  intro n hn
  call_fun
  unfold Graphic.build
  refine Same.bind (read_debug_string (by omega)) fun _ => ?_
  peel
  refine Same.bind (read_debug_string (by omega)) fun _ => ?_
  peel
  refine Same.bind (read_debug_string (by omega)) fun _ => ?_
  peel
  refine Same.bind (read_int_32 (by omega)) fun _ => ?_
  peel
  refine Same.bind (read_int_8 (by omega)) fun _ => ?_
  peel
  refine Same.bind (read_int_8 (by omega)) fun _ => ?_
  peel
  refine Same.bind (read_int_8 (by omega)) fun _ => ?_
  peel
  refine Same.bind (read_int_16 (by omega)) fun _ => ?_
  peel
  refine Same.bind (read_int_8 (by omega)) fun _ => ?_
  peel
  refine Same.bind (read_int_16_array_4 (by omega)) fun _ => ?_
  peel
  refine Same.bind (read_int_16 (by omega)) fun _ => ?_
  peel
  refine Same.bind (read_int_16 (by omega)) fun _ => ?_
  peel
  refine Same.bind (read_int_32 (by omega)) fun _ => ?_
  peel
  refine Same.bind (read_int_8 (by omega)) fun _ => ?_
  peel
  refine Same.bind (read_int_16 (by omega)) fun _ => ?_
  peel
  refine Same.bind (read_int_16 (by omega)) fun _ => ?_
  peel
  refine Same.bind (read_float (by omega)) fun _ => ?_
  peel
  refine Same.bind (read_float (by omega)) fun _ => ?_
  peel
  refine Same.bind (read_float (by omega)) fun _ => ?_
  peel
  refine Same.bind (read_int_8 (by omega)) fun _ => ?_
  peel
  refine Same.bind (read_int_16 (by omega)) fun _ => ?_
  peel
  refine Same.bind (read_int_8 (by omega)) fun _ => ?_
  peel
  refine Same.bind (read_int_8 (by omega)) fun _ => ?_
  peel
  refine Same.bind (read_class_array GraphicDelta_from_bytes (by omega) (by omega) _ _) fun _ => ?_
  peel
  refine Same.bind (φ := PVal.h) (Same.branch (ne_decide _) (fun _ => ?_) fun _ => ?_) fun _ => ?_
  · peel
    exact (read_class_array GraphicAngleSound_from_bytes (by omega) (by omega) _ _).tail'
  · peel
    exact (Same.allocH rfl).tail'
  peel
  exact (Same.allocH (by rfl)).tail _

/-- `TerrainPassGraphic.from_bytes` — `/repo/src/genieutils/terrainrestriction.py:15-21`. -/
theorem TerrainPassGraphic_from_bytes : ReadsAs 4 n!"TerrainPassGraphic" TerrainPassGraphic.build := by
  intro n hn
  call_fun
  unfold TerrainPassGraphic.build
  refine Same.bind (read_int_32 (by omega)) fun _ => ?_
  peel
  refine Same.bind (read_int_32 (by omega)) fun _ => ?_
  peel
  refine Same.bind (read_int_32 (by omega)) fun _ => ?_
  peel
  refine Same.bind (read_int_32 (by omega)) fun _ => ?_
  peel
  exact (Same.allocH (by rfl)).tail _

/-- `TerrainRestriction.from_bytes_with_count` — `/repo/src/genieutils/terrainrestriction.py:38-42`. -/
theorem TerrainRestriction_from_bytes_with_count : ∀ n, 6 ≤ n → ∀ p, Same PVal.h (callN n (.cls n!"TerrainRestriction") n!"TerrainRestriction" n!"from_bytes_with_count" ⟨[.handler, .h (.int p)], []⟩) (TerrainRestriction.buildWithCount p) := by
  intro n hn p
  call_fun
  unfold TerrainRestriction.buildWithCount
  refine Same.bind (read_float_array (by omega) _) fun _ => ?_
  peel
  refine Same.bind (read_class_array TerrainPassGraphic_from_bytes (by omega) (by omega) _ _) fun _ => ?_
  peel
  exact (Same.allocH (by rfl)).tail _

/-- `FrameData.from_bytes` — `/repo/src/genieutils/terrainblock.py:14-19`. -/
theorem FrameData_from_bytes : ReadsAs 4 n!"FrameData" FrameData.build := by
  intro n hn
  call_fun
  unfold FrameData.build
  refine Same.bind (read_int_16 (by omega)) fun _ => ?_
  peel
  refine Same.bind (read_int_16 (by omega)) fun _ => ?_
  peel
  refine Same.bind (read_int_16 (by omega)) fun _ => ?_
  peel
  exact (Same.allocH (by rfl)).tail _

set_option maxHeartbeats 0 in
/-- `Terrain.from_bytes` — `/repo/src/genieutils/terrainblock.py:71-111`. -/
theorem Terrain_from_bytes : ReadsAs 6 n!"Terrain" Terrain.build := by
  intro n hn
  call_fun
  unfold Terrain.build
  refine Same.bind (read_int_8 (by omega)) fun _ => ?_
  peel
  refine Same.bind (read_int_8 (by omega)) fun _ => ?_
  peel
  refine Same.bind (read_int_8 (by omega)) fun _ => ?_
  peel
  refine Same.bind (read_int_8 (by omega)) fun _ => ?_
  peel
  refine Same.bind (read_int_32 (by omega)) fun _ => ?_
  peel
  refine Same.bind (read_debug_string (by omega)) fun _ => ?_
  peel
  refine Same.bind (read_debug_string (by omega)) fun _ => ?_
  peel
  refine Same.bind (read_int_32 (by omega)) fun _ => ?_
  peel
  refine Same.bind (read_int_32 (by omega)) fun _ => ?_
  peel
  refine Same.bind (read_int_32 (by omega)) fun _ => ?_
  peel
  refine Same.bind (read_int_32_signed (by omega) false) fun _ => ?_
  peel
  refine Same.bind (read_int_32_signed (by omega) false) fun _ => ?_
  peel
  refine Same.bind (read_int_32 (by omega)) fun _ => ?_
  peel
  refine Same.bind (read_int_32 (by omega)) fun _ => ?_
  peel
  refine Same.bind (read_debug_string (by omega)) fun _ => ?_
  peel
  refine Same.bind (read_int_8_array_3 (by omega)) fun _ => ?_
  peel
  refine Same.bind (read_int_8_array_2 (by omega)) fun _ => ?_
  peel
  refine Same.bind (read_int_8 (by omega)) fun _ => ?_
  peel
  refine Same.bind (read_int_8 (by omega)) fun _ => ?_
  peel
  refine Same.bind (read_int_8 (by omega)) fun _ => ?_
  peel
  refine Same.bind (read_int_16 (by omega)) fun _ => ?_
  peel
  refine Same.bind (read_int_16 (by omega)) fun _ => ?_
  peel
  refine Same.bind (read_float (by omega)) fun _ => ?_
  peel
  refine Same.bind (read_float (by omega)) fun _ => ?_
  peel
  refine Same.bind (read_int_16 (by omega)) fun _ => ?_
  peel
  refine Same.bind (read_int_16 (by omega)) fun _ => ?_
  peel
  refine Same.bind (read_float (by omega)) fun _ => ?_
  peel
  refine Same.bind (read_int_8 (by omega)) fun _ => ?_
  peel
  refine Same.bind (read_int_8 (by omega)) fun _ => ?_
  peel
  refine Same.bind (read_class_array FrameData_from_bytes (by omega) (by omega) _ _) fun _ => ?_
  peel
  refine Same.bind (read_int_16 (by omega)) fun _ => ?_
  peel
  refine Same.bind (read_int_16_array_2 (by omega)) fun _ => ?_
  peel
  refine Same.bind (read_int_16_array (by omega) _) fun _ => ?_
  peel
  refine Same.bind (read_int_16_array (by omega) _) fun _ => ?_
  peel
  refine Same.bind (read_int_16_array (by omega) _) fun _ => ?_
  peel
  refine Same.bind (read_int_8_array (by omega) _) fun _ => ?_
  peel
  refine Same.bind (read_int_16 (by omega)) fun _ => ?_
  peel
  refine Same.bind (read_int_16 (by omega)) fun _ => ?_
  peel
  exact (Same.allocH (by rfl)).tail _

/-- `TileSize.from_bytes` — `/repo/src/genieutils/terrainblock.py:163-168`. -/
theorem TileSize_from_bytes : ReadsAs 4 n!"TileSize" TileSize.build := by
  intro n hn
  call_fun
  unfold TileSize.build
  refine Same.bind (read_int_16 (by omega)) fun _ => ?_
  peel
  refine Same.bind (read_int_16 (by omega)) fun _ => ?_
  peel
  refine Same.bind (read_int_16 (by omega)) fun _ => ?_
  peel
  exact (Same.allocH (by rfl)).tail _

set_option maxHeartbeats 0 in
/-- `TerrainBlock.from_bytes` — `/repo/src/genieutils/terrainblock.py:216-252`. -/
theorem TerrainBlock_from_bytes : ReadsAs 8 n!"TerrainBlock" TerrainBlock.build := by
  intro n hn
  call_fun
  unfold TerrainBlock.build
  refine Same.bind (read_int_32_signed (by omega) false) fun _ => ?_
  peel
  refine Same.bind (read_int_32_signed (by omega) false) fun _ => ?_
  peel
  refine Same.bind (read_int_32 (by omega)) fun _ => ?_
  peel
  refine Same.bind (read_int_32 (by omega)) fun _ => ?_
  peel
  refine Same.bind (read_int_32 (by omega)) fun _ => ?_
  peel
  refine Same.bind (read_int_32 (by omega)) fun _ => ?_
  peel
  refine Same.bind (read_class_array TileSize_from_bytes (by omega) (by omega) _ _) fun _ => ?_
  peel
  refine Same.bind (read_int_16 (by omega)) fun _ => ?_
  peel
  refine Same.bind (read_class_array Terrain_from_bytes (by omega) (by omega) _ _) fun _ => ?_
  peel
  refine Same.bind (read_float (by omega)) fun _ => ?_
  peel
  refine Same.bind (read_float (by omega)) fun _ => ?_
  peel
  refine Same.bind (read_float (by omega)) fun _ => ?_
  peel
  refine Same.bind (read_float (by omega)) fun _ => ?_
  peel
  refine Same.bind (read_float (by omega)) fun _ => ?_
  peel
  refine Same.bind (read_float (by omega)) fun _ => ?_
  peel
  refine Same.bind (read_int_16 (by omega)) fun _ => ?_
  peel
  refine Same.bind (read_int_16 (by omega)) fun _ => ?_
  peel
  refine Same.bind (read_int_16 (by omega)) fun _ => ?_
  peel
  refine Same.bind (read_int_16 (by omega)) fun _ => ?_
  peel
  refine Same.bind (read_int_16 (by omega)) fun _ => ?_
  peel
  refine Same.bind (read_int_16 (by omega)) fun _ => ?_
  peel
  refine Same.bind (read_int_16 (by omega)) fun _ => ?_
  peel
  refine Same.bind (read_int_16 (by omega)) fun _ => ?_
  peel
  refine Same.bind (read_int_16 (by omega)) fun _ => ?_
  peel
  refine Same.bind (read_int_16 (by omega)) fun _ => ?_
  peel
  refine Same.bind (read_int_16 (by omega)) fun _ => ?_
  peel
  refine Same.bind (read_int_16 (by omega)) fun _ => ?_
  peel
  refine Same.bind (read_int_16 (by omega)) fun _ => ?_
  peel
  refine Same.bind (read_int_16 (by omega)) fun _ => ?_
  peel
  refine Same.bind (read_int_32_signed (by omega) false) fun _ => ?_
  peel
  refine Same.bind (read_int_32_signed (by omega) false) fun _ => ?_
  peel
  refine Same.bind (read_int_8 (by omega)) fun _ => ?_
  peel
  refine Same.bind (read_int_8 (by omega)) fun _ => ?_
  peel
  refine Same.bind (read_int_8 (by omega)) fun _ => ?_
  peel
  exact (Same.allocH (by rfl)).tail _

/-- `MapUnit.from_bytes` — `/repo/src/genieutils/randommaps.py:24-39`. -/
theorem MapUnit_from_bytes : ReadsAs 4 n!"MapUnit" MapUnit.build := by
  intro n hn
  call_fun
  unfold MapUnit.build
  refine Same.bind (read_int_32 (by omega)) fun _ => ?_
  peel
  refine Same.bind (read_int_32 (by omega)) fun _ => ?_
  peel
  refine Same.bind (read_int_8 (by omega)) fun _ => ?_
  peel
  refine Same.bind (read_int_8 (by omega)) fun _ => ?_
  peel
  refine Same.bind (read_int_16 (by omega)) fun _ => ?_
  peel
  refine Same.bind (read_int_32 (by omega)) fun _ => ?_
  peel
  refine Same.bind (read_int_32 (by omega)) fun _ => ?_
  peel
  refine Same.bind (read_int_32 (by omega)) fun _ => ?_
  peel
  refine Same.bind (read_int_32 (by omega)) fun _ => ?_
  peel
  refine Same.bind (read_int_32 (by omega)) fun _ => ?_
  peel
  refine Same.bind (read_int_32 (by omega)) fun _ => ?_
  peel
  refine Same.bind (read_int_32 (by omega)) fun _ => ?_
  peel
  refine Same.bind (read_int_32 (by omega)) fun _ => ?_
  peel
  exact (Same.allocH (by rfl)).tail _

/-- `MapTerrain.from_bytes` — `/repo/src/genieutils/randommaps.py:69-77`. -/
theorem MapTerrain_from_bytes : ReadsAs 4 n!"MapTerrain" MapTerrain.build := by
  intro n hn
  call_fun
  unfold MapTerrain.build
  refine Same.bind (read_int_32 (by omega)) fun _ => ?_
  peel
  refine Same.bind (read_int_32 (by omega)) fun _ => ?_
  peel
  refine Same.bind (read_int_32 (by omega)) fun _ => ?_
  peel
  refine Same.bind (read_int_32 (by omega)) fun _ => ?_
  peel
  refine Same.bind (read_int_32 (by omega)) fun _ => ?_
  peel
  refine Same.bind (read_int_32 (by omega)) fun _ => ?_
  peel
  exact (Same.allocH (by rfl)).tail _

/-- `MapLand.from_bytes` — `/repo/src/genieutils/randommaps.py:109-126`. -/
theorem MapLand_from_bytes : ReadsAs 4 n!"MapLand" MapLand.build := by
  intro n hn
  call_fun
  unfold MapLand.build
  refine Same.bind (read_int_32 (by omega)) fun _ => ?_
  peel
  refine Same.bind (read_int_32_signed (by omega) false) fun _ => ?_
  peel
  refine Same.bind (read_int_32 (by omega)) fun _ => ?_
  peel
  refine Same.bind (read_int_32 (by omega)) fun _ => ?_
  peel
  refine Same.bind (read_int_8 (by omega)) fun _ => ?_
  peel
  refine Same.bind (read_int_8 (by omega)) fun _ => ?_
  peel
  refine Same.bind (read_int_16 (by omega)) fun _ => ?_
  peel
  refine Same.bind (read_int_32 (by omega)) fun _ => ?_
  peel
  refine Same.bind (read_int_32 (by omega)) fun _ => ?_
  peel
  refine Same.bind (read_int_8 (by omega)) fun _ => ?_
  peel
  refine Same.bind (read_int_8 (by omega)) fun _ => ?_
  peel
  refine Same.bind (read_int_16 (by omega)) fun _ => ?_
  peel
  refine Same.bind (read_int_32 (by omega)) fun _ => ?_
  peel
  refine Same.bind (read_int_32 (by omega)) fun _ => ?_
  peel
  refine Same.bind (read_int_32 (by omega)) fun _ => ?_
  peel
  exact (Same.allocH (by rfl)).tail _

/-- `MapElevation.from_bytes` — `/repo/src/genieutils/randommaps.py:158-166`. -/
theorem MapElevation_from_bytes : ReadsAs 4 n!"MapElevation" MapElevation.build := by
  intro n hn
  call_fun
  unfold MapElevation.build
  refine Same.bind (read_int_32 (by omega)) fun _ => ?_
  peel
  refine Same.bind (read_int_32 (by omega)) fun _ => ?_
  peel
  refine Same.bind (read_int_32 (by omega)) fun _ => ?_
  peel
  refine Same.bind (read_int_32 (by omega)) fun _ => ?_
  peel
  refine Same.bind (read_int_32 (by omega)) fun _ => ?_
  peel
  refine Same.bind (read_int_32 (by omega)) fun _ => ?_
  peel
  exact (Same.allocH (by rfl)).tail _

/-- `MapInfo.from_bytes` — `/repo/src/genieutils/randommaps.py:205-251`. -/
theorem MapInfo_from_bytes : ReadsAs 6 n!"MapInfo" MapInfo.build := by
  intro n hn
  call_fun
  unfold MapInfo.build
  refine Same.bind (read_int_32 (by omega)) fun _ => ?_
  peel
  refine Same.bind (read_int_32 (by omega)) fun _ => ?_
  peel
  refine Same.bind (read_int_32 (by omega)) fun _ => ?_
  peel
  refine Same.bind (read_int_32 (by omega)) fun _ => ?_
  peel
  refine Same.bind (read_int_32 (by omega)) fun _ => ?_
  peel
  refine Same.bind (read_int_32 (by omega)) fun _ => ?_
  peel
  refine Same.bind (read_int_32 (by omega)) fun _ => ?_
  peel
  refine Same.bind (read_int_32 (by omega)) fun _ => ?_
  peel
  refine Same.bind (read_int_32 (by omega)) fun _ => ?_
  peel
  refine Same.bind (read_int_32 (by omega)) fun _ => ?_
  peel
  refine Same.bind (read_int_32_signed (by omega) false) fun _ => ?_
  peel
  refine Same.bind (read_int_32 (by omega)) fun _ => ?_
  peel
  refine Same.bind (read_class_array MapLand_from_bytes (by omega) (by omega) _ _) fun _ => ?_
  peel
  refine Same.bind (read_int_32_signed (by omega) false) fun _ => ?_
  peel
  refine Same.bind (read_int_32 (by omega)) fun _ => ?_
  peel
  refine Same.bind (read_class_array MapTerrain_from_bytes (by omega) (by omega) _ _) fun _ => ?_
  peel
  refine Same.bind (read_int_32_signed (by omega) false) fun _ => ?_
  peel
  refine Same.bind (read_int_32 (by omega)) fun _ => ?_
  peel
  refine Same.bind (read_class_array MapUnit_from_bytes (by omega) (by omega) _ _) fun _ => ?_
  peel
  refine Same.bind (read_int_32_signed (by omega) false) fun _ => ?_
  peel
  refine Same.bind (read_int_32 (by omega)) fun _ => ?_
  peel
  refine Same.bind (read_class_array MapElevation_from_bytes (by omega) (by omega) _ _) fun _ => ?_
  peel
  exact (Same.allocH (by rfl)).tail _

/-- `RandomMaps.from_bytes` — `/repo/src/genieutils/randommaps.py:287-296`. -/
theorem RandomMaps_from_bytes : ReadsAs 8 n!"RandomMaps" RandomMaps.build := by
  intro n hn
  call_fun
  unfold RandomMaps.build
  refine Same.bind (read_int_32_signed (by omega) false) fun _ => ?_
  peel
  refine Same.bind (read_int_32 (by omega)) fun _ => ?_
  peel
  refine Same.bind (read_class_array MapInfo_from_bytes (by omega) (by omega) _ _) fun _ => ?_
  peel
  refine Same.bind (read_class_array MapInfo_from_bytes (by omega) (by omega) _ _) fun _ => ?_
  peel
  exact (Same.allocH (by rfl)).tail _

/-- `ResearchResourceCost.from_bytes` — `/repo/src/genieutils/tech.py:14-19`. -/
theorem ResearchResourceCost_from_bytes : ReadsAs 4 n!"ResearchResourceCost" ResearchResourceCost.build := by
  intro n hn
  call_fun
  unfold ResearchResourceCost.build
  refine Same.bind (read_int_16 (by omega)) fun _ => ?_
  peel
  refine Same.bind (read_int_16 (by omega)) fun _ => ?_
  peel
  refine Same.bind (read_int_8 (by omega)) fun _ => ?_
  peel
  exact (Same.allocH (by rfl)).tail _

/-- `ResearchLocation.from_bytes` — `/repo/src/genieutils/tech.py:37-43`. -/
theorem ResearchLocation_from_bytes : ReadsAs 4 n!"ResearchLocation" ResearchLocation.build := by
  intro n hn
  call_fun
  unfold ResearchLocation.build
  refine Same.bind (read_int_16 (by omega)) fun _ => ?_
  peel
  refine Same.bind (read_int_16 (by omega)) fun _ => ?_
  peel
  refine Same.bind (read_int_8 (by omega)) fun _ => ?_
  peel
  refine Same.bind (read_int_32 (by omega)) fun _ => ?_
  peel
  exact (Same.allocH (by rfl)).tail _

/-- `Tech.from_bytes_84` — `/repo/src/genieutils/tech.py:79-120`. -/
theorem Tech_from_bytes_84 : ∀ n, 6 ≤ n → Same PVal.h (callN n (.cls n!"Tech") n!"Tech" n!"from_bytes_84" ⟨[.handler], []⟩) Tech.build84 := by
  intro n hn
  call_fun
  unfold Tech.build84
  refine Same.bind (read_int_16_array_6 (by omega)) fun _ => ?_
  peel
  refine Same.bind (read_class_array_3 ResearchResourceCost_from_bytes (by omega)) fun _ => ?_
  peel
  refine Same.bind (read_int_16 (by omega)) fun _ => ?_
  peel
  refine Same.bind (read_int_16 (by omega)) fun _ => ?_
  peel
  refine Same.bind (read_int_16 (by omega)) fun _ => ?_
  peel
  refine Same.bind (read_int_16 (by omega)) fun _ => ?_
  peel
  refine Same.bind (read_int_32 (by omega)) fun _ => ?_
  peel
  refine Same.bind (read_int_32 (by omega)) fun _ => ?_
  peel
  refine Same.bind (read_int_16 (by omega)) fun _ => ?_
  peel
  refine Same.bind (read_int_16 (by omega)) fun _ => ?_
  peel
  refine Same.bind (read_int_16 (by omega)) fun _ => ?_
  peel
  refine Same.bind (read_int_16 (by omega)) fun _ => ?_
  peel
  refine Same.bind (read_int_8 (by omega)) fun _ => ?_
  peel
  refine Same.bind (read_int_32 (by omega)) fun _ => ?_
  peel
  refine Same.bind (read_int_32 (by omega)) fun _ => ?_
  peel
  refine Same.bind (read_int_32 (by omega)) fun _ => ?_
  peel
  refine Same.bind (read_debug_string (by omega)) fun _ => ?_
  peel
  refine Same.bind (read_int_8 (by omega)) fun _ => ?_
  peel
  refine Same.bind (Same.allocH (by rfl)) fun _ => ?_
  peel
  refine Same.bind (Same.allocH (by rfl)) fun _ => ?_
  peel
  exact (Same.allocH (by rfl)).tail _

/-- `Tech.from_bytes_88` — `/repo/src/genieutils/tech.py:123-156`. -/
theorem Tech_from_bytes_88 : ∀ n, 6 ≤ n → Same PVal.h (callN n (.cls n!"Tech") n!"Tech" n!"from_bytes_88" ⟨[.handler], []⟩) Tech.build88 := by
  intro n hn
  call_fun
  unfold Tech.build88
  refine Same.bind (read_int_16_array_6 (by omega)) fun _ => ?_
  peel
  refine Same.bind (read_class_array_3 ResearchResourceCost_from_bytes (by omega)) fun _ => ?_
  peel
  refine Same.bind (read_int_16 (by omega)) fun _ => ?_
  peel
  refine Same.bind (read_int_16 (by omega)) fun _ => ?_
  peel
  refine Same.bind (read_int_16 (by omega)) fun _ => ?_
  peel
  refine Same.bind (read_int_32 (by omega)) fun _ => ?_
  peel
  refine Same.bind (read_int_32 (by omega)) fun _ => ?_
  peel
  refine Same.bind (read_int_16 (by omega)) fun _ => ?_
  peel
  refine Same.bind (read_int_16 (by omega)) fun _ => ?_
  peel
  refine Same.bind (read_int_16 (by omega)) fun _ => ?_
  peel
  refine Same.bind (read_int_32 (by omega)) fun _ => ?_
  peel
  refine Same.bind (read_int_32 (by omega)) fun _ => ?_
  peel
  refine Same.bind (read_debug_string (by omega)) fun _ => ?_
  peel
  refine Same.bind (read_int_8 (by omega)) fun _ => ?_
  peel
  refine Same.bind (read_int_16 (by omega)) fun _ => ?_
  peel
  refine Same.bind (read_class_array ResearchLocation_from_bytes (by omega) (by omega) _ _) fun _ => ?_
  peel
  exact (Same.allocH (by rfl)).tail _

/-- `Tech.from_bytes` — `/repo/src/genieutils/tech.py:73-76`. -/
theorem Tech_from_bytes : ReadsAs 7 n!"Tech" Tech.build := by
  intro n hn
  call_fun
  unfold Tech.build
  refine Same.bind Same.version fun v => ?_
  peel
  refine Same.pureBind (version_ge (by omega) v _) ?_
  peel
  refine Same.iteBind (by simp) (fun _ => ?_) fun _ => ?_
  · peel
    exact Same.ret (Tech_from_bytes_88 _ (by omega))
  · peel
    exact (Tech_from_bytes_84 _ (by omega)).tail _

/-- `Common.from_bytes` — `/repo/src/genieutils/techtree.py:14-19`. -/
theorem Common_from_bytes : ReadsAs 4 n!"Common" Common.build := by
  intro n hn
  call_fun
  unfold Common.build
  refine Same.bind (read_int_32 (by omega)) fun _ => ?_
  peel
  refine Same.bind (read_int_32_array_10 (by omega)) fun _ => ?_
  peel
  refine Same.bind (read_int_32_array_10 (by omega)) fun _ => ?_
  peel
  exact (Same.allocH (by rfl)).tail _

/-- `TechTreeAge.from_bytes` — `/repo/src/genieutils/techtree.py:44-71`. -/
theorem TechTreeAge_from_bytes : ReadsAs 6 n!"TechTreeAge" TechTreeAge.build := by
  intro n hn
  call_fun
  unfold TechTreeAge.build
  refine Same.bind (read_int_32 (by omega)) fun _ => ?_
  peel
  refine Same.bind (read_int_8 (by omega)) fun _ => ?_
  peel
  refine Same.bind (read_int_8 (by omega)) fun _ => ?_
  peel
  refine Same.bind (read_int_32_array (by omega) _) fun _ => ?_
  peel
  refine Same.bind (read_int_8 (by omega)) fun _ => ?_
  peel
  refine Same.bind (read_int_32_array (by omega) _) fun _ => ?_
  peel
  refine Same.bind (read_int_8 (by omega)) fun _ => ?_
  peel
  refine Same.bind (read_int_32_array (by omega) _) fun _ => ?_
  peel
  refine Same.bind (read_class Common_from_bytes (by omega)) fun _ => ?_
  peel
  refine Same.bind (read_int_8 (by omega)) fun _ => ?_
  peel
  refine Same.bind (read_int_8_array_10 (by omega)) fun _ => ?_
  peel
  refine Same.bind (read_int_8_array_10 (by omega)) fun _ => ?_
  peel
  refine Same.bind (read_int_8 (by omega)) fun _ => ?_
  peel
  refine Same.bind (read_int_32 (by omega)) fun _ => ?_
  peel
  exact (Same.allocH (by rfl)).tail _

/-- `BuildingConnection.from_bytes` — `/repo/src/genieutils/techtree.py:107-134`. -/
theorem BuildingConnection_from_bytes : ReadsAs 6 n!"BuildingConnection" BuildingConnection.build := by
  intro n hn
  call_fun
  unfold BuildingConnection.build
  refine Same.bind (read_int_32 (by omega)) fun _ => ?_
  peel
  refine Same.bind (read_int_8 (by omega)) fun _ => ?_
  peel
  refine Same.bind (read_int_8 (by omega)) fun _ => ?_
  peel
  refine Same.bind (read_int_32_array (by omega) _) fun _ => ?_
  peel
  refine Same.bind (read_int_8 (by omega)) fun _ => ?_
  peel
  refine Same.bind (read_int_32_array (by omega) _) fun _ => ?_
  peel
  refine Same.bind (read_int_8 (by omega)) fun _ => ?_
  peel
  refine Same.bind (read_int_32_array (by omega) _) fun _ => ?_
  peel
  refine Same.bind (read_class Common_from_bytes (by omega)) fun _ => ?_
  peel
  refine Same.bind (read_int_8 (by omega)) fun _ => ?_
  peel
  refine Same.bind (read_int_8_array_5 (by omega)) fun _ => ?_
  peel
  refine Same.bind (read_int_8_array_5 (by omega)) fun _ => ?_
  peel
  refine Same.bind (read_int_32 (by omega)) fun _ => ?_
  peel
  refine Same.bind (read_int_32 (by omega)) fun _ => ?_
  peel
  exact (Same.allocH (by rfl)).tail _

/-- `UnitConnection.from_bytes` — `/repo/src/genieutils/techtree.py:169-192`. -/
theorem UnitConnection_from_bytes : ReadsAs 6 n!"UnitConnection" UnitConnection.build := by
  intro n hn
  call_fun
  unfold UnitConnection.build
  refine Same.bind (read_int_32 (by omega)) fun _ => ?_
  peel
  refine Same.bind (read_int_8 (by omega)) fun _ => ?_
  peel
  refine Same.bind (read_int_32 (by omega)) fun _ => ?_
  peel
  refine Same.bind (read_class Common_from_bytes (by omega)) fun _ => ?_
  peel
  refine Same.bind (read_int_32 (by omega)) fun _ => ?_
  peel
  refine Same.bind (read_int_8 (by omega)) fun _ => ?_
  peel
  refine Same.bind (read_int_32_array (by omega) _) fun _ => ?_
  peel
  refine Same.bind (read_int_32 (by omega)) fun _ => ?_
  peel
  refine Same.bind (read_int_32 (by omega)) fun _ => ?_
  peel
  refine Same.bind (read_int_32 (by omega)) fun _ => ?_
  peel
  refine Same.bind (read_int_32 (by omega)) fun _ => ?_
  peel
  exact (Same.allocH (by rfl)).tail _

/-- `ResearchConnection.from_bytes` — `/repo/src/genieutils/techtree.py:224-249`. -/
theorem ResearchConnection_from_bytes : ReadsAs 6 n!"ResearchConnection" ResearchConnection.build := by
  intro n hn
  call_fun
  unfold ResearchConnection.build
  refine Same.bind (read_int_32 (by omega)) fun _ => ?_
  peel
  refine Same.bind (read_int_8 (by omega)) fun _ => ?_
  peel
  refine Same.bind (read_int_32 (by omega)) fun _ => ?_
  peel
  refine Same.bind (read_int_8 (by omega)) fun _ => ?_
  peel
  refine Same.bind (read_int_32_array (by omega) _) fun _ => ?_
  peel
  refine Same.bind (read_int_8 (by omega)) fun _ => ?_
  peel
  refine Same.bind (read_int_32_array (by omega) _) fun _ => ?_
  peel
  refine Same.bind (read_int_8 (by omega)) fun _ => ?_
  peel
  refine Same.bind (read_int_32_array (by omega) _) fun _ => ?_
  peel
  refine Same.bind (read_class Common_from_bytes (by omega)) fun _ => ?_
  peel
  refine Same.bind (read_int_32 (by omega)) fun _ => ?_
  peel
  refine Same.bind (read_int_32 (by omega)) fun _ => ?_
  peel
  refine Same.bind (read_int_32 (by omega)) fun _ => ?_
  peel
  exact (Same.allocH (by rfl)).tail _

/-- `TechTree.from_bytes` — `/repo/src/genieutils/techtree.py:278-294`. -/
theorem TechTree_from_bytes : ReadsAs 8 n!"TechTree" TechTree.build := by
  intro n hn
  call_fun
  unfold TechTree.build
  refine Same.bind (read_int_8 (by omega)) fun _ => ?_
  peel
  refine Same.bind (read_int_8 (by omega)) fun _ => ?_
  peel
  refine Same.bind (read_int_8 (by omega)) fun _ => ?_
  peel
  refine Same.bind (read_int_8 (by omega)) fun _ => ?_
  peel
  refine Same.bind (read_int_32 (by omega)) fun _ => ?_
  peel
  refine Same.bind (read_class_array TechTreeAge_from_bytes (by omega) (by omega) _ _) fun _ => ?_
  peel
  refine Same.bind (read_class_array BuildingConnection_from_bytes (by omega) (by omega) _ _) fun _ => ?_
  peel
  refine Same.bind (read_class_array UnitConnection_from_bytes (by omega) (by omega) _ _) fun _ => ?_
  peel
  refine Same.bind (read_class_array ResearchConnection_from_bytes (by omega) (by omega) _ _) fun _ => ?_
  peel
  exact (Same.allocH (by rfl)).tail _

set_option maxHeartbeats 0 in
/-- `Task.from_bytes_84` — `/repo/src/genieutils/task.py:56-125`. -/
theorem Task_from_bytes_84 : ∀ n, 2 ≤ n → Same PVal.h (callN n (.cls n!"Task") n!"Task" n!"from_bytes_84" ⟨[.handler], []⟩) Task.build84 := by
  intro n hn
  call_fun
  unfold Task.build84
  unpack_fun
  pop_int
  pop_int
  pop_int
  pop_int
  pop_int
  pop_int
  pop_int
  pop_int
  pop_int
  pop_int
  pop_int
  pop_float
  pop_float
  pop_float
  pop_int
  pop_float
  pop_int
  pop_int
  pop_int
  pop_int
  pop_int
  pop_int
  pop_int
  pop_int
  pop_int
  pop_int
  pop_int
  pop_int
  pop_int
  pop_int
  pop_int
  pop_done
  exact (Same.allocH (by rfl)).tail _

set_option maxHeartbeats 0 in
/-- `Task.from_bytes_88` — `/repo/src/genieutils/task.py:128-198`. -/
theorem Task_from_bytes_88 : ∀ n, 2 ≤ n → Same PVal.h (callN n (.cls n!"Task") n!"Task" n!"from_bytes_88" ⟨[.handler], []⟩) Task.build88 := by
  intro n hn
  call_fun
  unfold Task.build88
  unpack_fun
  pop_int
  pop_int
  pop_int
  pop_int
  pop_int
  pop_int
  pop_int
  pop_int
  pop_int
  pop_int
  pop_int
  pop_float
  pop_float
  pop_float
  pop_int
  pop_float
  pop_int
  pop_int
  pop_int
  pop_int
  pop_int
  pop_int
  pop_int
  pop_int
  pop_int
  pop_int
  pop_int
  pop_int
  pop_int
  pop_int
  pop_int
  pop_int
  pop_done
  exact (Same.allocH (by rfl)).tail _

/-- `Task.from_bytes` — `/repo/src/genieutils/task.py:50-53`. -/
theorem Task_from_bytes : ReadsAs 3 n!"Task" Task.build := by
  intro n hn
  call_fun
  unfold Task.build
  refine Same.bind Same.version fun v => ?_
  peel
  refine Same.pureBind (version_ge (by omega) v _) ?_
  peel
  refine Same.iteBind (by simp) (fun _ => ?_) fun _ => ?_
  · peel
    exact Same.ret (Task_from_bytes_88 _ (by omega))
  · peel
    exact (Task_from_bytes_84 _ (by omega)).tail _

/-- `ResourceStorage.from_bytes` — `/repo/src/genieutils/unit.py:19-26`. -/
theorem ResourceStorage_from_bytes : ReadsAs 2 n!"ResourceStorage" ResourceStorage.build := by
  intro n hn
  call_fun
  unfold ResourceStorage.build
  unpack_fun
  pop_int
  pop_float
  pop_int
  pop_done
  exact (Same.allocH (by rfl)).tail _

/-- `DamageGraphic.from_bytes` — `/repo/src/genieutils/unit.py:43-51`. -/
theorem DamageGraphic_from_bytes : ReadsAs 2 n!"DamageGraphic" DamageGraphic.build := by
  intro n hn
  call_fun
  unfold DamageGraphic.build
  unpack_fun
  pop_int
  pop_int
  pop_int
  pop_done
  exact (Same.allocH (by rfl)).tail _

/-- `DeadFish.from_bytes` — `/repo/src/genieutils/unit.py:79-110`. -/
theorem DeadFish_from_bytes : ReadsAs 2 n!"DeadFish" DeadFish.build := by
  intro n hn
  call_fun
  unfold DeadFish.build
  unpack_fun
  pop_int
  pop_int
  pop_float
  pop_int
  pop_int
  pop_int
  pop_float
  pop_int
  pop_float
  pop_float
  pop_float
  pop_float
  pop_float
  pop_float
  pop_done
  exact (Same.allocH (by rfl)).tail _

/-- `Bird.from_bytes` — `/repo/src/genieutils/unit.py:146-174`. -/
theorem Bird_from_bytes : ReadsAs 5 n!"Bird" Bird.build := by
  intro n hn
  call_fun
  unfold Bird.build
  refine Same.bind (read_int_16 (by omega)) fun _ => ?_
  peel
  refine Same.bind (read_float (by omega)) fun _ => ?_
  peel
  refine Same.bind (read_float (by omega)) fun _ => ?_
  peel
  refine Same.bind Same.version fun v => ?_
  peel
  refine Same.pureBind (version_gt (by omega) v _) ?_
  peel
  refine Same.ifReadOr (by simp) (fun _ => rfl) (read_int_16 (by omega)) (fun _ => rfl) fun _ => ?_
  peel
  refine Same.bind (read_int_16_array (by omega) _) fun _ => ?_
  peel
  refine Same.bind (read_int_8 (by omega)) fun _ => ?_
  peel
  refine Same.bind (read_int_16 (by omega)) fun _ => ?_
  peel
  refine Same.bind (read_int_16 (by omega)) fun _ => ?_
  peel
  refine Same.bind (read_int_32 (by omega)) fun _ => ?_
  peel
  refine Same.bind (read_int_32 (by omega)) fun _ => ?_
  peel
  refine Same.bind (read_int_8 (by omega)) fun _ => ?_
  peel
  refine Same.bind (read_int_16 (by omega)) fun _ => ?_
  peel
  refine Same.bind (read_class_array Task_from_bytes (by omega) (by omega) _ _) fun _ => ?_
  peel
  exact (Same.allocH (by rfl)).tail _

/-- `AttackOrArmor.from_bytes` — `/repo/src/genieutils/unit.py:204-209`. -/
theorem AttackOrArmor_from_bytes : ReadsAs 2 n!"AttackOrArmor" AttackOrArmor.build := by
  intro n hn
  call_fun
  unfold AttackOrArmor.build
  unpack_fun
  pop_int
  pop_int
  pop_done
  exact (Same.allocH (by rfl)).tail _

set_option maxHeartbeats 0 in
/-- `Type50.from_bytes` — `/repo/src/genieutils/unit.py:246-310`. -/
theorem Type50_from_bytes : ReadsAs 4 n!"Type50" Type50.build := by
  intro n hn
  call_fun
  unfold Type50.build
  refine Same.bind (read_int_16 (by omega)) fun _ => ?_
  peel
  refine Same.bind (read_int_16 (by omega)) fun _ => ?_
  peel
  refine Same.bind (read_class_array AttackOrArmor_from_bytes (by omega) (by omega) _ _) fun _ => ?_
  peel
  refine Same.bind (read_int_16 (by omega)) fun _ => ?_
  peel
  refine Same.bind (read_class_array AttackOrArmor_from_bytes (by omega) (by omega) _ _) fun _ => ?_
  peel
  refine Same.bind (read_int_16 (by omega)) fun _ => ?_
  peel
  refine Same.bind (read_float (by omega)) fun _ => ?_
  peel
  refine Same.bind (read_float (by omega)) fun _ => ?_
  peel
  refine Same.bind (read_float (by omega)) fun _ => ?_
  peel
  refine Same.bind (read_float (by omega)) fun _ => ?_
  peel
  refine Same.bind (read_int_16 (by omega)) fun _ => ?_
  peel
  refine Same.bind (read_int_16 (by omega)) fun _ => ?_
  peel
  refine Same.bind (read_int_8 (by omega)) fun _ => ?_
  peel
  refine Same.bind (read_int_16 (by omega)) fun _ => ?_
  peel
  refine Same.bind (read_float_array_3 (by omega)) fun _ => ?_
  peel
  refine Same.bind (read_int_8 (by omega)) fun _ => ?_
  peel
  refine Same.bind (read_float (by omega)) fun _ => ?_
  peel
  refine Same.bind (read_float (by omega)) fun _ => ?_
  peel
  refine Same.bind (read_int_16 (by omega)) fun _ => ?_
  peel
  refine Same.bind (read_int_16 (by omega)) fun _ => ?_
  peel
  refine Same.bind (read_int_16 (by omega)) fun _ => ?_
  peel
  refine Same.bind (read_float (by omega)) fun _ => ?_
  peel
  refine Same.bind (read_float (by omega)) fun _ => ?_
  peel
  refine Same.bind (read_float (by omega)) fun _ => ?_
  peel
  refine Same.bind Same.version fun v => ?_
  peel
  refine Same.pureBind (version_ge (by omega) v _) ?_
  peel
  by_cases hv : v.ge .VER_84 = true
  · simp only [hv, readOr, if_true]
    peel
    refine Same.assoc ?_
    refine Same.bind (read_float (by omega)) fun _ => ?_
    peel
    refine Same.assoc ?_
    refine Same.bind (read_float (by omega)) fun _ => ?_
    peel
    refine Same.assoc ?_
    refine Same.bind (read_int_16 (by omega)) fun _ => ?_
    peel
    refine Same.assoc ?_
    refine Same.bind (read_float (by omega)) fun _ => ?_
    peel
    refine Same.assoc ?_
    refine Same.bind (read_int_16 (by omega)) fun _ => ?_
    peel
    exact (Same.allocH (by rfl)).tail _
  · simp only [hv, readOr]
    peel
    exact (Same.allocH (by rfl)).tail _

/-- `Projectile.from_bytes` — `/repo/src/genieutils/unit.py:364-378`. -/
theorem Projectile_from_bytes : ReadsAs 2 n!"Projectile" Projectile.build := by
  intro n hn
  call_fun
  unfold Projectile.build
  unpack_fun
  pop_int
  pop_int
  pop_int
  pop_int
  pop_int
  pop_float
  pop_done
  exact (Same.allocH (by rfl)).tail _

/-- `ResourceCost.from_bytes` — `/repo/src/genieutils/unit.py:402-408`. -/
theorem ResourceCost_from_bytes : ReadsAs 2 n!"ResourceCost" ResourceCost.build := by
  intro n hn
  call_fun
  unfold ResourceCost.build
  unpack_fun
  pop_int
  pop_int
  pop_int
  pop_done
  exact (Same.allocH (by rfl)).tail _

/-- `TrainLocation.from_bytes_84` — `/repo/src/genieutils/unit.py:435-444`. -/
theorem TrainLocation_from_bytes_84 : ∀ n, 2 ≤ n → Same PVal.h (callN n (.cls n!"TrainLocation") n!"TrainLocation" n!"from_bytes_84" ⟨[.handler], []⟩) TrainLocation.build84 := by
  intro n hn
  call_fun
  unfold TrainLocation.build84
  unpack_fun
  pop_int
  pop_int
  pop_int
  pop_done
  exact (Same.allocH (by rfl)).tail _

/-- `TrainLocation.from_bytes_88` — `/repo/src/genieutils/unit.py:447-457`. -/
theorem TrainLocation_from_bytes_88 : ∀ n, 2 ≤ n → Same PVal.h (callN n (.cls n!"TrainLocation") n!"TrainLocation" n!"from_bytes_88" ⟨[.handler], []⟩) TrainLocation.build88 := by
  intro n hn
  call_fun
  unfold TrainLocation.build88
  unpack_fun
  pop_int
  pop_int
  pop_int
  pop_int
  pop_done
  exact (Same.allocH (by rfl)).tail _

/-- `TrainLocation.from_bytes` — `/repo/src/genieutils/unit.py:429-432`. -/
theorem TrainLocation_from_bytes : ReadsAs 3 n!"TrainLocation" TrainLocation.build := by
  intro n hn
  call_fun
  unfold TrainLocation.build
  refine Same.bind Same.version fun v => ?_
  peel
  refine Same.pureBind (version_ge (by omega) v _) ?_
  peel
  refine Same.iteBind (by simp) (fun _ => ?_) fun _ => ?_
  · peel
    exact Same.ret (TrainLocation_from_bytes_88 _ (by omega))
  · peel
    exact (TrainLocation_from_bytes_84 _ (by omega)).tail _

set_option maxHeartbeats 0 in
/-- `Creatable.from_bytes_78` — `/repo/src/genieutils/unit.py:518-596`. -/
theorem Creatable_from_bytes_78 : ∀ n, 4 ≤ n → Same PVal.h (callN n (.cls n!"Creatable") n!"Creatable" n!"from_bytes_78" ⟨[.handler], []⟩) Creatable.build78 := by
  intro n hn
  call_fun
  unfold Creatable.build78
  refine Same.bind (read_class_array_3 ResourceCost_from_bytes (by omega)) fun _ => ?_
  peel
  unpack_fun
  pop_int
  pop_int
  pop_int
  pop_float
  pop_float
  pop_int
  pop_int
  pop_int
  pop_int
  pop_int
  pop_int
  pop_float
  pop_float
  pop_int
  pop_int
  pop_float
  pop_float
  pop_float
  pop_float
  pop_int
  pop_float
  pop_float
  pop_float
  pop_int
  pop_int
  pop_int
  pop_int
  pop_done
  refine Same.bind (Same.allocH (by rfl)) fun _ => ?_
  peel
  refine Same.bind (Same.allocH (by rfl)) fun _ => ?_
  peel
  refine Same.bind (Same.allocH (by rfl)) fun _ => ?_
  peel
  exact (Same.allocH (by rfl)).tail _

set_option maxHeartbeats 0 in
/-- `Creatable.from_bytes_84` — `/repo/src/genieutils/unit.py:599-678`. -/
theorem Creatable_from_bytes_84 : ∀ n, 4 ≤ n → Same PVal.h (callN n (.cls n!"Creatable") n!"Creatable" n!"from_bytes_84" ⟨[.handler], []⟩) Creatable.build84 := by
  intro n hn
  call_fun
  unfold Creatable.build84
  refine Same.bind (read_class_array_3 ResourceCost_from_bytes (by omega)) fun _ => ?_
  peel
  unpack_fun
  pop_int
  pop_int
  pop_int
  pop_float
  pop_float
  pop_int
  pop_int
  pop_int
  pop_int
  pop_int
  pop_int
  pop_int
  pop_float
  pop_float
  pop_int
  pop_int
  pop_int
  pop_int
  pop_int
  pop_float
  pop_int
  pop_int
  pop_int
  pop_int
  pop_float
  pop_float
  pop_float
  pop_float
  pop_int
  pop_float
  pop_float
  pop_float
  pop_int
  pop_int
  pop_int
  pop_int
  pop_done
  refine Same.bind (Same.allocH (by rfl)) fun _ => ?_
  peel
  refine Same.bind (Same.allocH (by rfl)) fun _ => ?_
  peel
  refine Same.bind (Same.allocH (by rfl)) fun _ => ?_
  peel
  exact (Same.allocH (by rfl)).tail _

set_option maxHeartbeats 0 in
/-- `Creatable.from_bytes_88` — `/repo/src/genieutils/unit.py:681-756`. -/
theorem Creatable_from_bytes_88 : ∀ n, 5 ≤ n → Same PVal.h (callN n (.cls n!"Creatable") n!"Creatable" n!"from_bytes_88" ⟨[.handler], []⟩) Creatable.build88 := by
  intro n hn
  call_fun
  unfold Creatable.build88
  refine Same.bind (read_class_array_3 ResourceCost_from_bytes (by omega)) fun _ => ?_
  peel
  refine Same.bind (read_int_16 (by omega)) fun _ => ?_
  peel
  refine Same.bind (read_class_array TrainLocation_from_bytes (by omega) (by omega) _ _) fun _ => ?_
  peel
  unpack_fun
  pop_float
  pop_float
  pop_int
  pop_int
  pop_int
  pop_int
  pop_int
  pop_int
  pop_int
  pop_float
  pop_float
  pop_int
  pop_int
  pop_int
  pop_int
  pop_int
  pop_float
  pop_int
  pop_int
  pop_int
  pop_int
  pop_float
  pop_float
  pop_float
  pop_float
  pop_int
  pop_float
  pop_float
  pop_float
  pop_int
  pop_int
  pop_int
  pop_int
  pop_done
  refine Same.bind (Same.allocH (by rfl)) fun _ => ?_
  peel
  exact (Same.allocH (by rfl)).tail _

/-- `Creatable.from_bytes` — `/repo/src/genieutils/unit.py:510-515`. -/
theorem Creatable_from_bytes : ReadsAs 6 n!"Creatable" Creatable.build := by
  intro n hn
  call_fun
  unfold Creatable.build
  rw [reread]
  refine Same.bind Same.version fun v => ?_
  peel
  refine Same.pureBind (version_ge (by omega) v _) ?_
  peel
  refine Same.iteBind (by simp) (fun _ => ?_) fun _ => ?_
  · peel
    exact Same.ret (Creatable_from_bytes_88 _ (by omega))
  · peel
    refine Same.assoc ?_
    refine Same.bind Same.version fun v => ?_
    peel
    refine Same.assoc ?_
    refine Same.pureBind (version_ge (by omega) v _) ?_
    peel
    refine Same.assoc ?_
    refine Same.iteBind (by simp) (fun _ => ?_) fun _ => ?_
    · peel
      refine Same.assoc ?_
      exact (Creatable_from_bytes_84 _ (by omega)).map fun _ => rfl
    · peel
      exact (Creatable_from_bytes_78 _ (by omega)).tail _

/-- `BuildingAnnex.from_bytes` — `/repo/src/genieutils/unit.py:884-891`. -/
theorem BuildingAnnex_from_bytes : ReadsAs 2 n!"BuildingAnnex" BuildingAnnex.build := by
  intro n hn
  call_fun
  unfold BuildingAnnex.build
  unpack_fun
  pop_int
  pop_float
  pop_float
  pop_done
  exact (Same.allocH (by rfl)).tail _

set_option maxHeartbeats 0 in
/-- `Building.from_bytes` — `/repo/src/genieutils/unit.py:938-1008`. -/
theorem Building_from_bytes : ReadsAs 4 n!"Building" Building.build := by
  intro n hn
  call_fun
  unfold Building.build
  unpack_fun
  pop_int
  pop_int
  pop_int
  pop_int
  pop_int
  pop_int
  pop_int
  pop_int
  pop_int
  pop_int
  pop_int
  pop_int
  pop_int
  pop_int
  pop_done
  refine Same.bind (read_class_array_4 BuildingAnnex_from_bytes (by omega)) fun _ => ?_
  peel
  unpack_fun
  pop_int
  pop_int
  pop_int
  pop_int
  pop_int
  pop_int
  pop_int
  pop_float
  pop_float
  pop_int
  pop_int
  pop_int
  pop_int
  pop_int
  pop_int
  pop_int
  pop_done
  refine Same.bind (Same.allocH (by rfl)) fun _ => ?_
  peel
  exact (Same.allocH (by rfl)).tail _

end Genie.Src
