import Verif.Proof.Source.WriteRules
/-!
# The source of `to_bytes` of the record classes does what the model says

Written by `tools/gen_source_writers.py`.
-/

namespace Genie.Src

/-- `EffectCommand.to_bytes` — `/repo/src/genieutils/effect.py:25-32`. -/
theorem EffectCommand_to_bytes : WritesAs n!"EffectCommand" EffectCommand.write := by
  intro H s r n rec self ver hk hr h2 hn hi
  have hg : IsGenie n!"EffectCommand" := IsGenie.of (by decide +kernel)
  write_fun
  refine Wr.join ?_
  refine Wr.eAttr (w := W.int8 H) strict_int8 rfl rfl fun _ => ?_
  peel
  refine Wr.elem (Wr.base hi hg (by decide) (write_int_8 hk (by omega) _ _)) fun _ => ?_
  peel
  refine Wr.eAttr (w := W.int16 H) strict_int16 rfl rfl fun _ => ?_
  peel
  refine Wr.elem (Wr.base hi hg (by decide) (write_int_16 hk (by omega) _ _)) fun _ => ?_
  peel
  refine Wr.eAttr (w := W.int16 H) strict_int16 rfl rfl fun _ => ?_
  peel
  refine Wr.elem (Wr.base hi hg (by decide) (write_int_16 hk (by omega) _ _)) fun _ => ?_
  peel
  refine Wr.eAttr (w := W.int16 H) strict_int16 rfl rfl fun _ => ?_
  peel
  refine Wr.elem (Wr.base hi hg (by decide) (write_int_16 hk (by omega) _ _)) fun _ => ?_
  peel
  refine Wr.eAttr (w := W.float) strict_float rfl rfl fun _ => ?_
  peel
  refine Wr.elem (Wr.base hi hg (by decide) (write_float (by omega) _ _)) fun _ => ?_
  peel
  exact Wr.done' (by join_end)

/-- `Effect.to_bytes` — `/repo/src/genieutils/effect.py:50-55`. -/
theorem Effect_to_bytes : WritesAs n!"Effect" Effect.write := by
  intro H s r n rec self ver hk hr h2 hn hi
  have hg : IsGenie n!"Effect" := IsGenie.of (by decide +kernel)
  write_fun
  refine Wr.join ?_
  refine Wr.eAttr (w := W.debugString) strict_debugString rfl rfl fun _ => ?_
  peel
  refine Wr.elem (Wr.base hi hg (by decide) (write_debug_string hk (by omega) hi hg _)) fun _ => ?_
  peel
  refine Wr.eLenAttr (w := W.int16 H) strict_int16 rfl rfl fun _ => ?_
  peel
  refine Wr.eLen (w := W.int16 H) strict_int16 fun _ => ?_
  peel
  refine Wr.elem (Wr.base hi hg (by decide) (write_int_16 hk (by omega) _ _)) fun _ => ?_
  peel
  refine Wr.eAttr (w := fun o => W.classArray H rec o ver) (strict_classArray _ _) rfl rfl fun _ => ?_
  peel
  refine Wr.elem (Wr.base hi hg (by decide) (write_class_array hr (by omega) hi hg _ _)) fun _ => ?_
  peel
  exact Wr.done' (by join_end)

/-- `SoundItem.to_bytes` — `/repo/src/genieutils/sound.py:25-32`. -/
theorem SoundItem_to_bytes : WritesAs n!"SoundItem" SoundItem.write := by
  intro H s r n rec self ver hk hr h2 hn hi
  have hg : IsGenie n!"SoundItem" := IsGenie.of (by decide +kernel)
  write_fun
  refine Wr.join ?_
  refine Wr.eAttr (w := W.debugString) strict_debugString rfl rfl fun _ => ?_
  peel
  refine Wr.elem (Wr.base hi hg (by decide) (write_debug_string hk (by omega) hi hg _)) fun _ => ?_
  peel
  refine Wr.eAttr (w := W.int32 H) strict_int32 rfl rfl fun _ => ?_
  peel
  refine Wr.elem (Wr.base hi hg (by decide) (write_int_32 hk (by omega) _ _)) fun _ => ?_
  peel
  refine Wr.eAttr (w := W.int16 H) strict_int16 rfl rfl fun _ => ?_
  peel
  refine Wr.elem (Wr.base hi hg (by decide) (write_int_16 hk (by omega) _ _)) fun _ => ?_
  peel
  refine Wr.eAttr (w := W.int16 H) strict_int16 rfl rfl fun _ => ?_
  peel
  refine Wr.elem (Wr.base hi hg (by decide) (write_int_16 hk (by omega) _ _)) fun _ => ?_
  peel
  refine Wr.eAttr (w := W.int16 H) strict_int16 rfl rfl fun _ => ?_
  peel
  refine Wr.elem (Wr.base hi hg (by decide) (write_int_16 hk (by omega) _ _)) fun _ => ?_
  peel
  exact Wr.done' (by join_end)

/-- `Sound.to_bytes` — `/repo/src/genieutils/sound.py:59-67`. -/
theorem Sound_to_bytes : WritesAs n!"Sound" Sound.write := by
  intro H s r n rec self ver hk hr h2 hn hi
  have hg : IsGenie n!"Sound" := IsGenie.of (by decide +kernel)
  write_fun
  refine Wr.join ?_
  refine Wr.eAttr (w := W.int16 H) strict_int16 rfl rfl fun _ => ?_
  peel
  refine Wr.elem (Wr.base hi hg (by decide) (write_int_16 hk (by omega) _ _)) fun _ => ?_
  peel
  refine Wr.eAttr (w := W.int16 H) strict_int16 rfl rfl fun _ => ?_
  peel
  refine Wr.elem (Wr.base hi hg (by decide) (write_int_16 hk (by omega) _ _)) fun _ => ?_
  peel
  refine Wr.eLenAttr (w := W.int16 H) strict_int16 rfl rfl fun _ => ?_
  peel
  refine Wr.eLen (w := W.int16 H) strict_int16 fun _ => ?_
  peel
  refine Wr.elem (Wr.base hi hg (by decide) (write_int_16 hk (by omega) _ _)) fun _ => ?_
  peel
  refine Wr.eAttr (w := W.int32 H) strict_int32 rfl rfl fun _ => ?_
  peel
  refine Wr.elem (Wr.base hi hg (by decide) (write_int_32 hk (by omega) _ _)) fun _ => ?_
  peel
  refine Wr.eAttr (w := W.int16 H) strict_int16 rfl rfl fun _ => ?_
  peel
  refine Wr.elem (Wr.base hi hg (by decide) (write_int_16 hk (by omega) _ _)) fun _ => ?_
  peel
  refine Wr.eAttr (w := fun o => W.classArray H rec o ver) (strict_classArray _ _) rfl rfl fun _ => ?_
  peel
  refine Wr.elem (Wr.base hi hg (by decide) (write_class_array hr (by omega) hi hg _ _)) fun _ => ?_
  peel
  exact Wr.done' (by join_end)

/-- `PlayerColour.to_bytes` — `/repo/src/genieutils/playercolour.py:33-44`. -/
theorem PlayerColour_to_bytes : WritesAs n!"PlayerColour" PlayerColour.write := by
  intro H s r n rec self ver hk hr h2 hn hi
  have hg : IsGenie n!"PlayerColour" := IsGenie.of (by decide +kernel)
  write_fun
  refine Wr.join ?_
  refine Wr.eAttr (w := W.int32 H) strict_int32 rfl rfl fun _ => ?_
  peel
  refine Wr.elem (Wr.base hi hg (by decide) (write_int_32 hk (by omega) _ _)) fun _ => ?_
  peel
  refine Wr.eAttr (w := W.int32 H) strict_int32 rfl rfl fun _ => ?_
  peel
  refine Wr.elem (Wr.base hi hg (by decide) (write_int_32 hk (by omega) _ _)) fun _ => ?_
  peel
  refine Wr.eAttr (w := W.int32 H) strict_int32 rfl rfl fun _ => ?_
  peel
  refine Wr.elem (Wr.base hi hg (by decide) (write_int_32 hk (by omega) _ _)) fun _ => ?_
  peel
  refine Wr.eAttr (w := W.int32 H) strict_int32 rfl rfl fun _ => ?_
  peel
  refine Wr.elem (Wr.base hi hg (by decide) (write_int_32 hk (by omega) _ _)) fun _ => ?_
  peel
  refine Wr.eAttr (w := W.int32 H) strict_int32 rfl rfl fun _ => ?_
  peel
  refine Wr.elem (Wr.base hi hg (by decide) (write_int_32 hk (by omega) _ _)) fun _ => ?_
  peel
  refine Wr.eAttr (w := W.int32 H) strict_int32 rfl rfl fun _ => ?_
  peel
  refine Wr.elem (Wr.base hi hg (by decide) (write_int_32 hk (by omega) _ _)) fun _ => ?_
  peel
  refine Wr.eAttr (w := W.int32 H) strict_int32 rfl rfl fun _ => ?_
  peel
  refine Wr.elem (Wr.base hi hg (by decide) (write_int_32 hk (by omega) _ _)) fun _ => ?_
  peel
  refine Wr.eAttr (w := W.int32 H) strict_int32 rfl rfl fun _ => ?_
  peel
  refine Wr.elem (Wr.base hi hg (by decide) (write_int_32 hk (by omega) _ _)) fun _ => ?_
  peel
  refine Wr.eAttr (w := W.int32 H) strict_int32 rfl rfl fun _ => ?_
  peel
  refine Wr.elem (Wr.base hi hg (by decide) (write_int_32 hk (by omega) _ _)) fun _ => ?_
  peel
  exact Wr.done' (by join_end)

/-- `GraphicDelta.to_bytes` — `/repo/src/genieutils/graphic.py:29-38`. -/
theorem GraphicDelta_to_bytes : WritesAs n!"GraphicDelta" GraphicDelta.write := by
  intro H s r n rec self ver hk hr h2 hn hi
  have hg : IsGenie n!"GraphicDelta" := IsGenie.of (by decide +kernel)
  write_fun
  refine Wr.join ?_
  refine Wr.eAttr (w := W.int16 H) strict_int16 rfl rfl fun _ => ?_
  peel
  refine Wr.elem (Wr.base hi hg (by decide) (write_int_16 hk (by omega) _ _)) fun _ => ?_
  peel
  refine Wr.eAttr (w := W.int16 H) strict_int16 rfl rfl fun _ => ?_
  peel
  refine Wr.elem (Wr.base hi hg (by decide) (write_int_16 hk (by omega) _ _)) fun _ => ?_
  peel
  refine Wr.eAttr (w := W.int32 H) strict_int32 rfl rfl fun _ => ?_
  peel
  refine Wr.elem (Wr.base hi hg (by decide) (write_int_32 hk (by omega) _ _)) fun _ => ?_
  peel
  refine Wr.eAttr (w := W.int16 H) strict_int16 rfl rfl fun _ => ?_
  peel
  refine Wr.elem (Wr.base hi hg (by decide) (write_int_16 hk (by omega) _ _)) fun _ => ?_
  peel
  refine Wr.eAttr (w := W.int16 H) strict_int16 rfl rfl fun _ => ?_
  peel
  refine Wr.elem (Wr.base hi hg (by decide) (write_int_16 hk (by omega) _ _)) fun _ => ?_
  peel
  refine Wr.eAttr (w := W.int16 H) strict_int16 rfl rfl fun _ => ?_
  peel
  refine Wr.elem (Wr.base hi hg (by decide) (write_int_16 hk (by omega) _ _)) fun _ => ?_
  peel
  refine Wr.eAttr (w := W.int16 H) strict_int16 rfl rfl fun _ => ?_
  peel
  refine Wr.elem (Wr.base hi hg (by decide) (write_int_16 hk (by omega) _ _)) fun _ => ?_
  peel
  exact Wr.done' (by join_end)

/-- `GraphicAngleSound.to_bytes` — `/repo/src/genieutils/graphic.py:67-78`. -/
theorem GraphicAngleSound_to_bytes : WritesAs n!"GraphicAngleSound" GraphicAngleSound.write := by
  intro H s r n rec self ver hk hr h2 hn hi
  have hg : IsGenie n!"GraphicAngleSound" := IsGenie.of (by decide +kernel)
  write_fun
  refine Wr.join ?_
  refine Wr.eAttr (w := W.int16 H) strict_int16 rfl rfl fun _ => ?_
  peel
  refine Wr.elem (Wr.base hi hg (by decide) (write_int_16 hk (by omega) _ _)) fun _ => ?_
  peel
  refine Wr.eAttr (w := W.int16 H) strict_int16 rfl rfl fun _ => ?_
  peel
  refine Wr.elem (Wr.base hi hg (by decide) (write_int_16 hk (by omega) _ _)) fun _ => ?_
  peel
  refine Wr.eAttr (w := W.int32 H) strict_int32 rfl rfl fun _ => ?_
  peel
  refine Wr.elem (Wr.base hi hg (by decide) (write_int_32 hk (by omega) _ _)) fun _ => ?_
  peel
  refine Wr.eAttr (w := W.int16 H) strict_int16 rfl rfl fun _ => ?_
  peel
  refine Wr.elem (Wr.base hi hg (by decide) (write_int_16 hk (by omega) _ _)) fun _ => ?_
  peel
  refine Wr.eAttr (w := W.int16 H) strict_int16 rfl rfl fun _ => ?_
  peel
  refine Wr.elem (Wr.base hi hg (by decide) (write_int_16 hk (by omega) _ _)) fun _ => ?_
  peel
  refine Wr.eAttr (w := W.int32 H) strict_int32 rfl rfl fun _ => ?_
  peel
  refine Wr.elem (Wr.base hi hg (by decide) (write_int_32 hk (by omega) _ _)) fun _ => ?_
  peel
  refine Wr.eAttr (w := W.int16 H) strict_int16 rfl rfl fun _ => ?_
  peel
  refine Wr.elem (Wr.base hi hg (by decide) (write_int_16 hk (by omega) _ _)) fun _ => ?_
  peel
  refine Wr.eAttr (w := W.int16 H) strict_int16 rfl rfl fun _ => ?_
  peel
  refine Wr.elem (Wr.base hi hg (by decide) (write_int_16 hk (by omega) _ _)) fun _ => ?_
  peel
  refine Wr.eAttr (w := W.int32 H) strict_int32 rfl rfl fun _ => ?_
  peel
  refine Wr.elem (Wr.base hi hg (by decide) (write_int_32 hk (by omega) _ _)) fun _ => ?_
  peel
  exact Wr.done' (by join_end)

/-- `Graphic.to_bytes` — `/repo/src/genieutils/graphic.py:162-189`. -/
theorem Graphic_to_bytes : WritesAs n!"Graphic" Graphic.write := by
  intro H s r n rec self ver hk hr h2 hn hi
  have hg : IsGenie n!"Graphic" := IsGenie.of (by decide +kernel)
  write_fun
  refine Wr.join ?_
  refine Wr.eAttr (w := W.debugString) strict_debugString rfl rfl fun _ => ?_
  peel
  refine Wr.elem (Wr.base hi hg (by decide) (write_debug_string hk (by omega) hi hg _)) fun _ => ?_
  peel
  refine Wr.eAttr (w := W.debugString) strict_debugString rfl rfl fun _ => ?_
  peel
  refine Wr.elem (Wr.base hi hg (by decide) (write_debug_string hk (by omega) hi hg _)) fun _ => ?_
  peel
  refine Wr.eAttr (w := W.debugString) strict_debugString rfl rfl fun _ => ?_
  peel
  refine Wr.elem (Wr.base hi hg (by decide) (write_debug_string hk (by omega) hi hg _)) fun _ => ?_
  peel
  refine Wr.eAttr (w := W.int32 H) strict_int32 rfl rfl fun _ => ?_
  peel
  refine Wr.elem (Wr.base hi hg (by decide) (write_int_32 hk (by omega) _ _)) fun _ => ?_
  peel
  refine Wr.eAttr (w := W.int8 H) strict_int8 rfl rfl fun _ => ?_
  peel
  refine Wr.elem (Wr.base hi hg (by decide) (write_int_8 hk (by omega) _ _)) fun _ => ?_
  peel
  refine Wr.eAttr (w := W.int8 H) strict_int8 rfl rfl fun _ => ?_
  peel
  refine Wr.elem (Wr.base hi hg (by decide) (write_int_8 hk (by omega) _ _)) fun _ => ?_
  peel
  refine Wr.eAttr (w := W.int8 H) strict_int8 rfl rfl fun _ => ?_
  peel
  refine Wr.elem (Wr.base hi hg (by decide) (write_int_8 hk (by omega) _ _)) fun _ => ?_
  peel
  refine Wr.eAttr (w := W.int16 H) strict_int16 rfl rfl fun _ => ?_
  peel
  refine Wr.elem (Wr.base hi hg (by decide) (write_int_16 hk (by omega) _ _)) fun _ => ?_
  peel
  refine Wr.eAttr (w := W.int8 H) strict_int8 rfl rfl fun _ => ?_
  peel
  refine Wr.elem (Wr.base hi hg (by decide) (write_int_8 hk (by omega) _ _)) fun _ => ?_
  peel
  refine Wr.eAttr (w := W.int16Array H) strict_int16Array rfl rfl fun _ => ?_
  peel
  refine Wr.elem (Wr.base hi hg (by decide) (write_int_16_array hk (by omega) hi hg _)) fun _ => ?_
  peel
  refine Wr.eLenAttr (w := W.int16 H) strict_int16 rfl rfl fun _ => ?_
  peel
  refine Wr.eLen (w := W.int16 H) strict_int16 fun _ => ?_
  peel
  refine Wr.elem (Wr.base hi hg (by decide) (write_int_16 hk (by omega) _ _)) fun _ => ?_
  peel
  refine Wr.eAttr (w := W.int16 H) strict_int16 rfl rfl fun _ => ?_
  peel
  refine Wr.elem (Wr.base hi hg (by decide) (write_int_16 hk (by omega) _ _)) fun _ => ?_
  peel
  refine Wr.eAttr (w := W.int32 H) strict_int32 rfl rfl fun _ => ?_
  peel
  refine Wr.elem (Wr.base hi hg (by decide) (write_int_32 hk (by omega) _ _)) fun _ => ?_
  peel
  refine Wr.eAttr (w := W.int8 H) strict_int8 rfl rfl fun _ => ?_
  peel
  refine Wr.elem (Wr.base hi hg (by decide) (write_int_8 hk (by omega) _ _)) fun _ => ?_
  peel
  refine Wr.eAttr (w := W.int16 H) strict_int16 rfl rfl fun _ => ?_
  peel
  refine Wr.elem (Wr.base hi hg (by decide) (write_int_16 hk (by omega) _ _)) fun _ => ?_
  peel
  refine Wr.eAttr (w := W.int16 H) strict_int16 rfl rfl fun _ => ?_
  peel
  refine Wr.elem (Wr.base hi hg (by decide) (write_int_16 hk (by omega) _ _)) fun _ => ?_
  peel
  refine Wr.eAttr (w := W.float) strict_float rfl rfl fun _ => ?_
  peel
  refine Wr.elem (Wr.base hi hg (by decide) (write_float (by omega) _ _)) fun _ => ?_
  peel
  refine Wr.eAttr (w := W.float) strict_float rfl rfl fun _ => ?_
  peel
  refine Wr.elem (Wr.base hi hg (by decide) (write_float (by omega) _ _)) fun _ => ?_
  peel
  refine Wr.eAttr (w := W.float) strict_float rfl rfl fun _ => ?_
  peel
  refine Wr.elem (Wr.base hi hg (by decide) (write_float (by omega) _ _)) fun _ => ?_
  peel
  refine Wr.eAttr (w := W.int8 H) strict_int8 rfl rfl fun _ => ?_
  peel
  refine Wr.elem (Wr.base hi hg (by decide) (write_int_8 hk (by omega) _ _)) fun _ => ?_
  peel
  refine Wr.eAttr (w := W.int16 H) strict_int16 rfl rfl fun _ => ?_
  peel
  refine Wr.elem (Wr.base hi hg (by decide) (write_int_16 hk (by omega) _ _)) fun _ => ?_
  peel
  refine Wr.eAttr (w := W.int8 H) strict_int8 rfl rfl fun _ => ?_
  peel
  refine Wr.elem (Wr.base hi hg (by decide) (write_int_8 hk (by omega) _ _)) fun _ => ?_
  peel
  refine Wr.eAttr (w := W.int8 H) strict_int8 rfl rfl fun _ => ?_
  peel
  refine Wr.elem (Wr.base hi hg (by decide) (write_int_8 hk (by omega) _ _)) fun _ => ?_
  peel
  refine Wr.eAttr (w := fun o => W.classArray H rec o ver) (strict_classArray _ _) rfl rfl fun _ => ?_
  peel
  refine Wr.elem (Wr.base hi hg (by decide) (write_class_array hr (by omega) hi hg _ _)) fun _ => ?_
  peel
  refine Wr.eAttr (w := fun o => W.classArray H rec o ver) (strict_classArray _ _) rfl rfl fun _ => ?_
  peel
  refine Wr.elem (Wr.base hi hg (by decide) (write_class_array hr (by omega) hi hg _ _)) fun _ => ?_
  peel
  exact Wr.done' (by join_end)

/-- `TerrainPassGraphic.to_bytes` — `/repo/src/genieutils/terrainrestriction.py:23-29`. -/
theorem TerrainPassGraphic_to_bytes : WritesAs n!"TerrainPassGraphic" TerrainPassGraphic.write := by
  intro H s r n rec self ver hk hr h2 hn hi
  have hg : IsGenie n!"TerrainPassGraphic" := IsGenie.of (by decide +kernel)
  write_fun
  refine Wr.join ?_
  refine Wr.eAttr (w := W.int32 H) strict_int32 rfl rfl fun _ => ?_
  peel
  refine Wr.elem (Wr.base hi hg (by decide) (write_int_32 hk (by omega) _ _)) fun _ => ?_
  peel
  refine Wr.eAttr (w := W.int32 H) strict_int32 rfl rfl fun _ => ?_
  peel
  refine Wr.elem (Wr.base hi hg (by decide) (write_int_32 hk (by omega) _ _)) fun _ => ?_
  peel
  refine Wr.eAttr (w := W.int32 H) strict_int32 rfl rfl fun _ => ?_
  peel
  refine Wr.elem (Wr.base hi hg (by decide) (write_int_32 hk (by omega) _ _)) fun _ => ?_
  peel
  refine Wr.eAttr (w := W.int32 H) strict_int32 rfl rfl fun _ => ?_
  peel
  refine Wr.elem (Wr.base hi hg (by decide) (write_int_32 hk (by omega) _ _)) fun _ => ?_
  peel
  exact Wr.done' (by join_end)

/-- `FrameData.to_bytes` — `/repo/src/genieutils/terrainblock.py:21-26`. -/
theorem FrameData_to_bytes : WritesAs n!"FrameData" FrameData.write := by
  intro H s r n rec self ver hk hr h2 hn hi
  have hg : IsGenie n!"FrameData" := IsGenie.of (by decide +kernel)
  write_fun
  refine Wr.join ?_
  refine Wr.eAttr (w := W.int16 H) strict_int16 rfl rfl fun _ => ?_
  peel
  refine Wr.elem (Wr.base hi hg (by decide) (write_int_16 hk (by omega) _ _)) fun _ => ?_
  peel
  refine Wr.eAttr (w := W.int16 H) strict_int16 rfl rfl fun _ => ?_
  peel
  refine Wr.elem (Wr.base hi hg (by decide) (write_int_16 hk (by omega) _ _)) fun _ => ?_
  peel
  refine Wr.eAttr (w := W.int16 H) strict_int16 rfl rfl fun _ => ?_
  peel
  refine Wr.elem (Wr.base hi hg (by decide) (write_int_16 hk (by omega) _ _)) fun _ => ?_
  peel
  exact Wr.done' (by join_end)

/-- `Terrain.to_bytes` — `/repo/src/genieutils/terrainblock.py:113-153`. -/
theorem Terrain_to_bytes : WritesAs n!"Terrain" Terrain.write := by
  intro H s r n rec self ver hk hr h2 hn hi
  have hg : IsGenie n!"Terrain" := IsGenie.of (by decide +kernel)
  write_fun
  refine Wr.join ?_
  refine Wr.eAttr (w := W.int8 H) strict_int8 rfl rfl fun _ => ?_
  peel
  refine Wr.elem (Wr.base hi hg (by decide) (write_int_8 hk (by omega) _ _)) fun _ => ?_
  peel
  refine Wr.eAttr (w := W.int8 H) strict_int8 rfl rfl fun _ => ?_
  peel
  refine Wr.elem (Wr.base hi hg (by decide) (write_int_8 hk (by omega) _ _)) fun _ => ?_
  peel
  refine Wr.eAttr (w := W.int8 H) strict_int8 rfl rfl fun _ => ?_
  peel
  refine Wr.elem (Wr.base hi hg (by decide) (write_int_8 hk (by omega) _ _)) fun _ => ?_
  peel
  refine Wr.eAttr (w := W.int8 H) strict_int8 rfl rfl fun _ => ?_
  peel
  refine Wr.elem (Wr.base hi hg (by decide) (write_int_8 hk (by omega) _ _)) fun _ => ?_
  peel
  refine Wr.eAttr (w := W.int32 H) strict_int32 rfl rfl fun _ => ?_
  peel
  refine Wr.elem (Wr.base hi hg (by decide) (write_int_32 hk (by omega) _ _)) fun _ => ?_
  peel
  refine Wr.eAttr (w := W.debugString) strict_debugString rfl rfl fun _ => ?_
  peel
  refine Wr.elem (Wr.base hi hg (by decide) (write_debug_string hk (by omega) hi hg _)) fun _ => ?_
  peel
  refine Wr.eAttr (w := W.debugString) strict_debugString rfl rfl fun _ => ?_
  peel
  refine Wr.elem (Wr.base hi hg (by decide) (write_debug_string hk (by omega) hi hg _)) fun _ => ?_
  peel
  refine Wr.eAttr (w := W.int32 H) strict_int32 rfl rfl fun _ => ?_
  peel
  refine Wr.elem (Wr.base hi hg (by decide) (write_int_32 hk (by omega) _ _)) fun _ => ?_
  peel
  refine Wr.eAttr (w := W.int32 H) strict_int32 rfl rfl fun _ => ?_
  peel
  refine Wr.elem (Wr.base hi hg (by decide) (write_int_32 hk (by omega) _ _)) fun _ => ?_
  peel
  refine Wr.eAttr (w := W.int32 H) strict_int32 rfl rfl fun _ => ?_
  peel
  refine Wr.elem (Wr.base hi hg (by decide) (write_int_32 hk (by omega) _ _)) fun _ => ?_
  peel
  refine Wr.eAttr (w := fun o => W.int32 H o false) (strict_int32s false) rfl rfl fun _ => ?_
  peel
  refine Wr.elem (Wr.base hi hg (by decide) (write_int_32_signed hk (by omega) _ _ false)) fun _ => ?_
  peel
  refine Wr.eAttr (w := fun o => W.int32 H o false) (strict_int32s false) rfl rfl fun _ => ?_
  peel
  refine Wr.elem (Wr.base hi hg (by decide) (write_int_32_signed hk (by omega) _ _ false)) fun _ => ?_
  peel
  refine Wr.eAttr (w := W.int32 H) strict_int32 rfl rfl fun _ => ?_
  peel
  refine Wr.elem (Wr.base hi hg (by decide) (write_int_32 hk (by omega) _ _)) fun _ => ?_
  peel
  refine Wr.eAttr (w := W.int32 H) strict_int32 rfl rfl fun _ => ?_
  peel
  refine Wr.elem (Wr.base hi hg (by decide) (write_int_32 hk (by omega) _ _)) fun _ => ?_
  peel
  refine Wr.eAttr (w := W.debugString) strict_debugString rfl rfl fun _ => ?_
  peel
  refine Wr.elem (Wr.base hi hg (by decide) (write_debug_string hk (by omega) hi hg _)) fun _ => ?_
  peel
  refine Wr.eAttr (w := W.int8Array H) strict_int8Array rfl rfl fun _ => ?_
  peel
  refine Wr.elem (Wr.base hi hg (by decide) (write_int_8_array hk (by omega) hi hg _)) fun _ => ?_
  peel
  refine Wr.eAttr (w := W.int8Array H) strict_int8Array rfl rfl fun _ => ?_
  peel
  refine Wr.elem (Wr.base hi hg (by decide) (write_int_8_array hk (by omega) hi hg _)) fun _ => ?_
  peel
  refine Wr.eAttr (w := W.int8 H) strict_int8 rfl rfl fun _ => ?_
  peel
  refine Wr.elem (Wr.base hi hg (by decide) (write_int_8 hk (by omega) _ _)) fun _ => ?_
  peel
  refine Wr.eAttr (w := W.int8 H) strict_int8 rfl rfl fun _ => ?_
  peel
  refine Wr.elem (Wr.base hi hg (by decide) (write_int_8 hk (by omega) _ _)) fun _ => ?_
  peel
  refine Wr.eAttr (w := W.int8 H) strict_int8 rfl rfl fun _ => ?_
  peel
  refine Wr.elem (Wr.base hi hg (by decide) (write_int_8 hk (by omega) _ _)) fun _ => ?_
  peel
  refine Wr.eAttr (w := W.int16 H) strict_int16 rfl rfl fun _ => ?_
  peel
  refine Wr.elem (Wr.base hi hg (by decide) (write_int_16 hk (by omega) _ _)) fun _ => ?_
  peel
  refine Wr.eAttr (w := W.int16 H) strict_int16 rfl rfl fun _ => ?_
  peel
  refine Wr.elem (Wr.base hi hg (by decide) (write_int_16 hk (by omega) _ _)) fun _ => ?_
  peel
  refine Wr.eAttr (w := W.float) strict_float rfl rfl fun _ => ?_
  peel
  refine Wr.elem (Wr.base hi hg (by decide) (write_float (by omega) _ _)) fun _ => ?_
  peel
  refine Wr.eAttr (w := W.float) strict_float rfl rfl fun _ => ?_
  peel
  refine Wr.elem (Wr.base hi hg (by decide) (write_float (by omega) _ _)) fun _ => ?_
  peel
  refine Wr.eAttr (w := W.int16 H) strict_int16 rfl rfl fun _ => ?_
  peel
  refine Wr.elem (Wr.base hi hg (by decide) (write_int_16 hk (by omega) _ _)) fun _ => ?_
  peel
  refine Wr.eAttr (w := W.int16 H) strict_int16 rfl rfl fun _ => ?_
  peel
  refine Wr.elem (Wr.base hi hg (by decide) (write_int_16 hk (by omega) _ _)) fun _ => ?_
  peel
  refine Wr.eAttr (w := W.float) strict_float rfl rfl fun _ => ?_
  peel
  refine Wr.elem (Wr.base hi hg (by decide) (write_float (by omega) _ _)) fun _ => ?_
  peel
  refine Wr.eAttr (w := W.int8 H) strict_int8 rfl rfl fun _ => ?_
  peel
  refine Wr.elem (Wr.base hi hg (by decide) (write_int_8 hk (by omega) _ _)) fun _ => ?_
  peel
  refine Wr.eAttr (w := W.int8 H) strict_int8 rfl rfl fun _ => ?_
  peel
  refine Wr.elem (Wr.base hi hg (by decide) (write_int_8 hk (by omega) _ _)) fun _ => ?_
  peel
  refine Wr.eAttr (w := fun o => W.classArray H rec o ver) (strict_classArray _ _) rfl rfl fun _ => ?_
  peel
  refine Wr.elem (Wr.base hi hg (by decide) (write_class_array hr (by omega) hi hg _ _)) fun _ => ?_
  peel
  refine Wr.eAttr (w := W.int16 H) strict_int16 rfl rfl fun _ => ?_
  peel
  refine Wr.elem (Wr.base hi hg (by decide) (write_int_16 hk (by omega) _ _)) fun _ => ?_
  peel
  refine Wr.eAttr (w := W.int16Array H) strict_int16Array rfl rfl fun _ => ?_
  peel
  refine Wr.elem (Wr.base hi hg (by decide) (write_int_16_array hk (by omega) hi hg _)) fun _ => ?_
  peel
  refine Wr.eAttr (w := W.int16Array H) strict_int16Array rfl rfl fun _ => ?_
  peel
  refine Wr.elem (Wr.base hi hg (by decide) (write_int_16_array hk (by omega) hi hg _)) fun _ => ?_
  peel
  refine Wr.eAttr (w := W.int16Array H) strict_int16Array rfl rfl fun _ => ?_
  peel
  refine Wr.elem (Wr.base hi hg (by decide) (write_int_16_array hk (by omega) hi hg _)) fun _ => ?_
  peel
  refine Wr.eAttr (w := W.int16Array H) strict_int16Array rfl rfl fun _ => ?_
  peel
  refine Wr.elem (Wr.base hi hg (by decide) (write_int_16_array hk (by omega) hi hg _)) fun _ => ?_
  peel
  refine Wr.eAttr (w := W.int8Array H) strict_int8Array rfl rfl fun _ => ?_
  peel
  refine Wr.elem (Wr.base hi hg (by decide) (write_int_8_array hk (by omega) hi hg _)) fun _ => ?_
  peel
  refine Wr.eAttr (w := W.int16 H) strict_int16 rfl rfl fun _ => ?_
  peel
  refine Wr.elem (Wr.base hi hg (by decide) (write_int_16 hk (by omega) _ _)) fun _ => ?_
  peel
  refine Wr.eAttr (w := W.int16 H) strict_int16 rfl rfl fun _ => ?_
  peel
  refine Wr.elem (Wr.base hi hg (by decide) (write_int_16 hk (by omega) _ _)) fun _ => ?_
  peel
  exact Wr.done' (by join_end)

/-- `TileSize.to_bytes` — `/repo/src/genieutils/terrainblock.py:170-175`. -/
theorem TileSize_to_bytes : WritesAs n!"TileSize" TileSize.write := by
  intro H s r n rec self ver hk hr h2 hn hi
  have hg : IsGenie n!"TileSize" := IsGenie.of (by decide +kernel)
  write_fun
  refine Wr.join ?_
  refine Wr.eAttr (w := W.int16 H) strict_int16 rfl rfl fun _ => ?_
  peel
  refine Wr.elem (Wr.base hi hg (by decide) (write_int_16 hk (by omega) _ _)) fun _ => ?_
  peel
  refine Wr.eAttr (w := W.int16 H) strict_int16 rfl rfl fun _ => ?_
  peel
  refine Wr.elem (Wr.base hi hg (by decide) (write_int_16 hk (by omega) _ _)) fun _ => ?_
  peel
  refine Wr.eAttr (w := W.int16 H) strict_int16 rfl rfl fun _ => ?_
  peel
  refine Wr.elem (Wr.base hi hg (by decide) (write_int_16 hk (by omega) _ _)) fun _ => ?_
  peel
  exact Wr.done' (by join_end)

/-- `TerrainBlock.to_bytes` — `/repo/src/genieutils/terrainblock.py:254-290`. -/
theorem TerrainBlock_to_bytes : WritesAs n!"TerrainBlock" TerrainBlock.write := by
  intro H s r n rec self ver hk hr h2 hn hi
  have hg : IsGenie n!"TerrainBlock" := IsGenie.of (by decide +kernel)
  write_fun
  refine Wr.join ?_
  refine Wr.eAttr (w := fun o => W.int32 H o false) (strict_int32s false) rfl rfl fun _ => ?_
  peel
  refine Wr.elem (Wr.base hi hg (by decide) (write_int_32_signed hk (by omega) _ _ false)) fun _ => ?_
  peel
  refine Wr.eAttr (w := fun o => W.int32 H o false) (strict_int32s false) rfl rfl fun _ => ?_
  peel
  refine Wr.elem (Wr.base hi hg (by decide) (write_int_32_signed hk (by omega) _ _ false)) fun _ => ?_
  peel
  refine Wr.eAttr (w := W.int32 H) strict_int32 rfl rfl fun _ => ?_
  peel
  refine Wr.elem (Wr.base hi hg (by decide) (write_int_32 hk (by omega) _ _)) fun _ => ?_
  peel
  refine Wr.eAttr (w := W.int32 H) strict_int32 rfl rfl fun _ => ?_
  peel
  refine Wr.elem (Wr.base hi hg (by decide) (write_int_32 hk (by omega) _ _)) fun _ => ?_
  peel
  refine Wr.eAttr (w := W.int32 H) strict_int32 rfl rfl fun _ => ?_
  peel
  refine Wr.elem (Wr.base hi hg (by decide) (write_int_32 hk (by omega) _ _)) fun _ => ?_
  peel
  refine Wr.eAttr (w := W.int32 H) strict_int32 rfl rfl fun _ => ?_
  peel
  refine Wr.elem (Wr.base hi hg (by decide) (write_int_32 hk (by omega) _ _)) fun _ => ?_
  peel
  refine Wr.eAttr (w := fun o => W.classArray H rec o ver) (strict_classArray _ _) rfl rfl fun _ => ?_
  peel
  refine Wr.elem (Wr.base hi hg (by decide) (write_class_array hr (by omega) hi hg _ _)) fun _ => ?_
  peel
  refine Wr.eAttr (w := W.int16 H) strict_int16 rfl rfl fun _ => ?_
  peel
  refine Wr.elem (Wr.base hi hg (by decide) (write_int_16 hk (by omega) _ _)) fun _ => ?_
  peel
  refine Wr.eAttr (w := fun o => W.classArray H rec o ver) (strict_classArray _ _) rfl rfl fun _ => ?_
  peel
  refine Wr.elem (Wr.base hi hg (by decide) (write_class_array hr (by omega) hi hg _ _)) fun _ => ?_
  peel
  refine Wr.eAttr (w := W.float) strict_float rfl rfl fun _ => ?_
  peel
  refine Wr.elem (Wr.base hi hg (by decide) (write_float (by omega) _ _)) fun _ => ?_
  peel
  refine Wr.eAttr (w := W.float) strict_float rfl rfl fun _ => ?_
  peel
  refine Wr.elem (Wr.base hi hg (by decide) (write_float (by omega) _ _)) fun _ => ?_
  peel
  refine Wr.eAttr (w := W.float) strict_float rfl rfl fun _ => ?_
  peel
  refine Wr.elem (Wr.base hi hg (by decide) (write_float (by omega) _ _)) fun _ => ?_
  peel
  refine Wr.eAttr (w := W.float) strict_float rfl rfl fun _ => ?_
  peel
  refine Wr.elem (Wr.base hi hg (by decide) (write_float (by omega) _ _)) fun _ => ?_
  peel
  refine Wr.eAttr (w := W.float) strict_float rfl rfl fun _ => ?_
  peel
  refine Wr.elem (Wr.base hi hg (by decide) (write_float (by omega) _ _)) fun _ => ?_
  peel
  refine Wr.eAttr (w := W.float) strict_float rfl rfl fun _ => ?_
  peel
  refine Wr.elem (Wr.base hi hg (by decide) (write_float (by omega) _ _)) fun _ => ?_
  peel
  refine Wr.eAttr (w := W.int16 H) strict_int16 rfl rfl fun _ => ?_
  peel
  refine Wr.elem (Wr.base hi hg (by decide) (write_int_16 hk (by omega) _ _)) fun _ => ?_
  peel
  refine Wr.eAttr (w := W.int16 H) strict_int16 rfl rfl fun _ => ?_
  peel
  refine Wr.elem (Wr.base hi hg (by decide) (write_int_16 hk (by omega) _ _)) fun _ => ?_
  peel
  refine Wr.eAttr (w := W.int16 H) strict_int16 rfl rfl fun _ => ?_
  peel
  refine Wr.elem (Wr.base hi hg (by decide) (write_int_16 hk (by omega) _ _)) fun _ => ?_
  peel
  refine Wr.eAttr (w := W.int16 H) strict_int16 rfl rfl fun _ => ?_
  peel
  refine Wr.elem (Wr.base hi hg (by decide) (write_int_16 hk (by omega) _ _)) fun _ => ?_
  peel
  refine Wr.eAttr (w := W.int16 H) strict_int16 rfl rfl fun _ => ?_
  peel
  refine Wr.elem (Wr.base hi hg (by decide) (write_int_16 hk (by omega) _ _)) fun _ => ?_
  peel
  refine Wr.eAttr (w := W.int16 H) strict_int16 rfl rfl fun _ => ?_
  peel
  refine Wr.elem (Wr.base hi hg (by decide) (write_int_16 hk (by omega) _ _)) fun _ => ?_
  peel
  refine Wr.eAttr (w := W.int16 H) strict_int16 rfl rfl fun _ => ?_
  peel
  refine Wr.elem (Wr.base hi hg (by decide) (write_int_16 hk (by omega) _ _)) fun _ => ?_
  peel
  refine Wr.eAttr (w := W.int16 H) strict_int16 rfl rfl fun _ => ?_
  peel
  refine Wr.elem (Wr.base hi hg (by decide) (write_int_16 hk (by omega) _ _)) fun _ => ?_
  peel
  refine Wr.eAttr (w := W.int16 H) strict_int16 rfl rfl fun _ => ?_
  peel
  refine Wr.elem (Wr.base hi hg (by decide) (write_int_16 hk (by omega) _ _)) fun _ => ?_
  peel
  refine Wr.eAttr (w := W.int16 H) strict_int16 rfl rfl fun _ => ?_
  peel
  refine Wr.elem (Wr.base hi hg (by decide) (write_int_16 hk (by omega) _ _)) fun _ => ?_
  peel
  refine Wr.eAttr (w := W.int16 H) strict_int16 rfl rfl fun _ => ?_
  peel
  refine Wr.elem (Wr.base hi hg (by decide) (write_int_16 hk (by omega) _ _)) fun _ => ?_
  peel
  refine Wr.eAttr (w := W.int16 H) strict_int16 rfl rfl fun _ => ?_
  peel
  refine Wr.elem (Wr.base hi hg (by decide) (write_int_16 hk (by omega) _ _)) fun _ => ?_
  peel
  refine Wr.eAttr (w := W.int16 H) strict_int16 rfl rfl fun _ => ?_
  peel
  refine Wr.elem (Wr.base hi hg (by decide) (write_int_16 hk (by omega) _ _)) fun _ => ?_
  peel
  refine Wr.eAttr (w := W.int16 H) strict_int16 rfl rfl fun _ => ?_
  peel
  refine Wr.elem (Wr.base hi hg (by decide) (write_int_16 hk (by omega) _ _)) fun _ => ?_
  peel
  refine Wr.eAttr (w := fun o => W.int32 H o false) (strict_int32s false) rfl rfl fun _ => ?_
  peel
  refine Wr.elem (Wr.base hi hg (by decide) (write_int_32_signed hk (by omega) _ _ false)) fun _ => ?_
  peel
  refine Wr.eAttr (w := fun o => W.int32 H o false) (strict_int32s false) rfl rfl fun _ => ?_
  peel
  refine Wr.elem (Wr.base hi hg (by decide) (write_int_32_signed hk (by omega) _ _ false)) fun _ => ?_
  peel
  refine Wr.eAttr (w := W.int8 H) strict_int8 rfl rfl fun _ => ?_
  peel
  refine Wr.elem (Wr.base hi hg (by decide) (write_int_8 hk (by omega) _ _)) fun _ => ?_
  peel
  refine Wr.eAttr (w := W.int8 H) strict_int8 rfl rfl fun _ => ?_
  peel
  refine Wr.elem (Wr.base hi hg (by decide) (write_int_8 hk (by omega) _ _)) fun _ => ?_
  peel
  refine Wr.eAttr (w := W.int8 H) strict_int8 rfl rfl fun _ => ?_
  peel
  refine Wr.elem (Wr.base hi hg (by decide) (write_int_8 hk (by omega) _ _)) fun _ => ?_
  peel
  exact Wr.done' (by join_end)

/-- `MapUnit.to_bytes` — `/repo/src/genieutils/randommaps.py:41-56`. -/
theorem MapUnit_to_bytes : WritesAs n!"MapUnit" MapUnit.write := by
  intro H s r n rec self ver hk hr h2 hn hi
  have hg : IsGenie n!"MapUnit" := IsGenie.of (by decide +kernel)
  write_fun
  refine Wr.join ?_
  refine Wr.eAttr (w := W.int32 H) strict_int32 rfl rfl fun _ => ?_
  peel
  refine Wr.elem (Wr.base hi hg (by decide) (write_int_32 hk (by omega) _ _)) fun _ => ?_
  peel
  refine Wr.eAttr (w := W.int32 H) strict_int32 rfl rfl fun _ => ?_
  peel
  refine Wr.elem (Wr.base hi hg (by decide) (write_int_32 hk (by omega) _ _)) fun _ => ?_
  peel
  refine Wr.eAttr (w := W.int8 H) strict_int8 rfl rfl fun _ => ?_
  peel
  refine Wr.elem (Wr.base hi hg (by decide) (write_int_8 hk (by omega) _ _)) fun _ => ?_
  peel
  refine Wr.eAttr (w := W.int8 H) strict_int8 rfl rfl fun _ => ?_
  peel
  refine Wr.elem (Wr.base hi hg (by decide) (write_int_8 hk (by omega) _ _)) fun _ => ?_
  peel
  refine Wr.eAttr (w := W.int16 H) strict_int16 rfl rfl fun _ => ?_
  peel
  refine Wr.elem (Wr.base hi hg (by decide) (write_int_16 hk (by omega) _ _)) fun _ => ?_
  peel
  refine Wr.eAttr (w := W.int32 H) strict_int32 rfl rfl fun _ => ?_
  peel
  refine Wr.elem (Wr.base hi hg (by decide) (write_int_32 hk (by omega) _ _)) fun _ => ?_
  peel
  refine Wr.eAttr (w := W.int32 H) strict_int32 rfl rfl fun _ => ?_
  peel
  refine Wr.elem (Wr.base hi hg (by decide) (write_int_32 hk (by omega) _ _)) fun _ => ?_
  peel
  refine Wr.eAttr (w := W.int32 H) strict_int32 rfl rfl fun _ => ?_
  peel
  refine Wr.elem (Wr.base hi hg (by decide) (write_int_32 hk (by omega) _ _)) fun _ => ?_
  peel
  refine Wr.eAttr (w := W.int32 H) strict_int32 rfl rfl fun _ => ?_
  peel
  refine Wr.elem (Wr.base hi hg (by decide) (write_int_32 hk (by omega) _ _)) fun _ => ?_
  peel
  refine Wr.eAttr (w := W.int32 H) strict_int32 rfl rfl fun _ => ?_
  peel
  refine Wr.elem (Wr.base hi hg (by decide) (write_int_32 hk (by omega) _ _)) fun _ => ?_
  peel
  refine Wr.eAttr (w := W.int32 H) strict_int32 rfl rfl fun _ => ?_
  peel
  refine Wr.elem (Wr.base hi hg (by decide) (write_int_32 hk (by omega) _ _)) fun _ => ?_
  peel
  refine Wr.eAttr (w := W.int32 H) strict_int32 rfl rfl fun _ => ?_
  peel
  refine Wr.elem (Wr.base hi hg (by decide) (write_int_32 hk (by omega) _ _)) fun _ => ?_
  peel
  refine Wr.eAttr (w := W.int32 H) strict_int32 rfl rfl fun _ => ?_
  peel
  refine Wr.elem (Wr.base hi hg (by decide) (write_int_32 hk (by omega) _ _)) fun _ => ?_
  peel
  exact Wr.done' (by join_end)

/-- `MapTerrain.to_bytes` — `/repo/src/genieutils/randommaps.py:79-87`. -/
theorem MapTerrain_to_bytes : WritesAs n!"MapTerrain" MapTerrain.write := by
  intro H s r n rec self ver hk hr h2 hn hi
  have hg : IsGenie n!"MapTerrain" := IsGenie.of (by decide +kernel)
  write_fun
  refine Wr.join ?_
  refine Wr.eAttr (w := W.int32 H) strict_int32 rfl rfl fun _ => ?_
  peel
  refine Wr.elem (Wr.base hi hg (by decide) (write_int_32 hk (by omega) _ _)) fun _ => ?_
  peel
  refine Wr.eAttr (w := W.int32 H) strict_int32 rfl rfl fun _ => ?_
  peel
  refine Wr.elem (Wr.base hi hg (by decide) (write_int_32 hk (by omega) _ _)) fun _ => ?_
  peel
  refine Wr.eAttr (w := W.int32 H) strict_int32 rfl rfl fun _ => ?_
  peel
  refine Wr.elem (Wr.base hi hg (by decide) (write_int_32 hk (by omega) _ _)) fun _ => ?_
  peel
  refine Wr.eAttr (w := W.int32 H) strict_int32 rfl rfl fun _ => ?_
  peel
  refine Wr.elem (Wr.base hi hg (by decide) (write_int_32 hk (by omega) _ _)) fun _ => ?_
  peel
  refine Wr.eAttr (w := W.int32 H) strict_int32 rfl rfl fun _ => ?_
  peel
  refine Wr.elem (Wr.base hi hg (by decide) (write_int_32 hk (by omega) _ _)) fun _ => ?_
  peel
  refine Wr.eAttr (w := W.int32 H) strict_int32 rfl rfl fun _ => ?_
  peel
  refine Wr.elem (Wr.base hi hg (by decide) (write_int_32 hk (by omega) _ _)) fun _ => ?_
  peel
  exact Wr.done' (by join_end)

/-- `MapLand.to_bytes` — `/repo/src/genieutils/randommaps.py:128-145`. -/
theorem MapLand_to_bytes : WritesAs n!"MapLand" MapLand.write := by
  intro H s r n rec self ver hk hr h2 hn hi
  have hg : IsGenie n!"MapLand" := IsGenie.of (by decide +kernel)
  write_fun
  refine Wr.join ?_
  refine Wr.eAttr (w := W.int32 H) strict_int32 rfl rfl fun _ => ?_
  peel
  refine Wr.elem (Wr.base hi hg (by decide) (write_int_32 hk (by omega) _ _)) fun _ => ?_
  peel
  refine Wr.eAttr (w := fun o => W.int32 H o false) (strict_int32s false) rfl rfl fun _ => ?_
  peel
  refine Wr.elem (Wr.base hi hg (by decide) (write_int_32_signed hk (by omega) _ _ false)) fun _ => ?_
  peel
  refine Wr.eAttr (w := W.int32 H) strict_int32 rfl rfl fun _ => ?_
  peel
  refine Wr.elem (Wr.base hi hg (by decide) (write_int_32 hk (by omega) _ _)) fun _ => ?_
  peel
  refine Wr.eAttr (w := W.int32 H) strict_int32 rfl rfl fun _ => ?_
  peel
  refine Wr.elem (Wr.base hi hg (by decide) (write_int_32 hk (by omega) _ _)) fun _ => ?_
  peel
  refine Wr.eAttr (w := W.int8 H) strict_int8 rfl rfl fun _ => ?_
  peel
  refine Wr.elem (Wr.base hi hg (by decide) (write_int_8 hk (by omega) _ _)) fun _ => ?_
  peel
  refine Wr.eAttr (w := W.int8 H) strict_int8 rfl rfl fun _ => ?_
  peel
  refine Wr.elem (Wr.base hi hg (by decide) (write_int_8 hk (by omega) _ _)) fun _ => ?_
  peel
  refine Wr.eAttr (w := W.int16 H) strict_int16 rfl rfl fun _ => ?_
  peel
  refine Wr.elem (Wr.base hi hg (by decide) (write_int_16 hk (by omega) _ _)) fun _ => ?_
  peel
  refine Wr.eAttr (w := W.int32 H) strict_int32 rfl rfl fun _ => ?_
  peel
  refine Wr.elem (Wr.base hi hg (by decide) (write_int_32 hk (by omega) _ _)) fun _ => ?_
  peel
  refine Wr.eAttr (w := W.int32 H) strict_int32 rfl rfl fun _ => ?_
  peel
  refine Wr.elem (Wr.base hi hg (by decide) (write_int_32 hk (by omega) _ _)) fun _ => ?_
  peel
  refine Wr.eAttr (w := W.int8 H) strict_int8 rfl rfl fun _ => ?_
  peel
  refine Wr.elem (Wr.base hi hg (by decide) (write_int_8 hk (by omega) _ _)) fun _ => ?_
  peel
  refine Wr.eAttr (w := W.int8 H) strict_int8 rfl rfl fun _ => ?_
  peel
  refine Wr.elem (Wr.base hi hg (by decide) (write_int_8 hk (by omega) _ _)) fun _ => ?_
  peel
  refine Wr.eAttr (w := W.int16 H) strict_int16 rfl rfl fun _ => ?_
  peel
  refine Wr.elem (Wr.base hi hg (by decide) (write_int_16 hk (by omega) _ _)) fun _ => ?_
  peel
  refine Wr.eAttr (w := W.int32 H) strict_int32 rfl rfl fun _ => ?_
  peel
  refine Wr.elem (Wr.base hi hg (by decide) (write_int_32 hk (by omega) _ _)) fun _ => ?_
  peel
  refine Wr.eAttr (w := W.int32 H) strict_int32 rfl rfl fun _ => ?_
  peel
  refine Wr.elem (Wr.base hi hg (by decide) (write_int_32 hk (by omega) _ _)) fun _ => ?_
  peel
  refine Wr.eAttr (w := W.int32 H) strict_int32 rfl rfl fun _ => ?_
  peel
  refine Wr.elem (Wr.base hi hg (by decide) (write_int_32 hk (by omega) _ _)) fun _ => ?_
  peel
  exact Wr.done' (by join_end)

/-- `MapElevation.to_bytes` — `/repo/src/genieutils/randommaps.py:168-176`. -/
theorem MapElevation_to_bytes : WritesAs n!"MapElevation" MapElevation.write := by
  intro H s r n rec self ver hk hr h2 hn hi
  have hg : IsGenie n!"MapElevation" := IsGenie.of (by decide +kernel)
  write_fun
  refine Wr.join ?_
  refine Wr.eAttr (w := W.int32 H) strict_int32 rfl rfl fun _ => ?_
  peel
  refine Wr.elem (Wr.base hi hg (by decide) (write_int_32 hk (by omega) _ _)) fun _ => ?_
  peel
  refine Wr.eAttr (w := W.int32 H) strict_int32 rfl rfl fun _ => ?_
  peel
  refine Wr.elem (Wr.base hi hg (by decide) (write_int_32 hk (by omega) _ _)) fun _ => ?_
  peel
  refine Wr.eAttr (w := W.int32 H) strict_int32 rfl rfl fun _ => ?_
  peel
  refine Wr.elem (Wr.base hi hg (by decide) (write_int_32 hk (by omega) _ _)) fun _ => ?_
  peel
  refine Wr.eAttr (w := W.int32 H) strict_int32 rfl rfl fun _ => ?_
  peel
  refine Wr.elem (Wr.base hi hg (by decide) (write_int_32 hk (by omega) _ _)) fun _ => ?_
  peel
  refine Wr.eAttr (w := W.int32 H) strict_int32 rfl rfl fun _ => ?_
  peel
  refine Wr.elem (Wr.base hi hg (by decide) (write_int_32 hk (by omega) _ _)) fun _ => ?_
  peel
  refine Wr.eAttr (w := W.int32 H) strict_int32 rfl rfl fun _ => ?_
  peel
  refine Wr.elem (Wr.base hi hg (by decide) (write_int_32 hk (by omega) _ _)) fun _ => ?_
  peel
  exact Wr.done' (by join_end)

/-- `MapInfo.to_bytes` — `/repo/src/genieutils/randommaps.py:253-277`. -/
theorem MapInfo_to_bytes : WritesAs n!"MapInfo" MapInfo.write := by
  intro H s r n rec self ver hk hr h2 hn hi
  have hg : IsGenie n!"MapInfo" := IsGenie.of (by decide +kernel)
  write_fun
  refine Wr.join ?_
  refine Wr.eAttr (w := W.int32 H) strict_int32 rfl rfl fun _ => ?_
  peel
  refine Wr.elem (Wr.base hi hg (by decide) (write_int_32 hk (by omega) _ _)) fun _ => ?_
  peel
  refine Wr.eAttr (w := W.int32 H) strict_int32 rfl rfl fun _ => ?_
  peel
  refine Wr.elem (Wr.base hi hg (by decide) (write_int_32 hk (by omega) _ _)) fun _ => ?_
  peel
  refine Wr.eAttr (w := W.int32 H) strict_int32 rfl rfl fun _ => ?_
  peel
  refine Wr.elem (Wr.base hi hg (by decide) (write_int_32 hk (by omega) _ _)) fun _ => ?_
  peel
  refine Wr.eAttr (w := W.int32 H) strict_int32 rfl rfl fun _ => ?_
  peel
  refine Wr.elem (Wr.base hi hg (by decide) (write_int_32 hk (by omega) _ _)) fun _ => ?_
  peel
  refine Wr.eAttr (w := W.int32 H) strict_int32 rfl rfl fun _ => ?_
  peel
  refine Wr.elem (Wr.base hi hg (by decide) (write_int_32 hk (by omega) _ _)) fun _ => ?_
  peel
  refine Wr.eAttr (w := W.int32 H) strict_int32 rfl rfl fun _ => ?_
  peel
  refine Wr.elem (Wr.base hi hg (by decide) (write_int_32 hk (by omega) _ _)) fun _ => ?_
  peel
  refine Wr.eAttr (w := W.int32 H) strict_int32 rfl rfl fun _ => ?_
  peel
  refine Wr.elem (Wr.base hi hg (by decide) (write_int_32 hk (by omega) _ _)) fun _ => ?_
  peel
  refine Wr.eAttr (w := W.int32 H) strict_int32 rfl rfl fun _ => ?_
  peel
  refine Wr.elem (Wr.base hi hg (by decide) (write_int_32 hk (by omega) _ _)) fun _ => ?_
  peel
  refine Wr.eAttr (w := W.int32 H) strict_int32 rfl rfl fun _ => ?_
  peel
  refine Wr.elem (Wr.base hi hg (by decide) (write_int_32 hk (by omega) _ _)) fun _ => ?_
  peel
  refine Wr.eAttr (w := W.int32 H) strict_int32 rfl rfl fun _ => ?_
  peel
  refine Wr.elem (Wr.base hi hg (by decide) (write_int_32 hk (by omega) _ _)) fun _ => ?_
  peel
  refine Wr.eAttr (w := fun o => W.int32 H o false) (strict_int32s false) rfl rfl fun _ => ?_
  peel
  refine Wr.elem (Wr.base hi hg (by decide) (write_int_32_signed hk (by omega) _ _ false)) fun _ => ?_
  peel
  refine Wr.eAttr (w := W.int32 H) strict_int32 rfl rfl fun _ => ?_
  peel
  refine Wr.elem (Wr.base hi hg (by decide) (write_int_32 hk (by omega) _ _)) fun _ => ?_
  peel
  refine Wr.eAttr (w := fun o => W.classArray H rec o ver) (strict_classArray _ _) rfl rfl fun _ => ?_
  peel
  refine Wr.elem (Wr.base hi hg (by decide) (write_class_array hr (by omega) hi hg _ _)) fun _ => ?_
  peel
  refine Wr.eAttr (w := fun o => W.int32 H o false) (strict_int32s false) rfl rfl fun _ => ?_
  peel
  refine Wr.elem (Wr.base hi hg (by decide) (write_int_32_signed hk (by omega) _ _ false)) fun _ => ?_
  peel
  refine Wr.eAttr (w := W.int32 H) strict_int32 rfl rfl fun _ => ?_
  peel
  refine Wr.elem (Wr.base hi hg (by decide) (write_int_32 hk (by omega) _ _)) fun _ => ?_
  peel
  refine Wr.eAttr (w := fun o => W.classArray H rec o ver) (strict_classArray _ _) rfl rfl fun _ => ?_
  peel
  refine Wr.elem (Wr.base hi hg (by decide) (write_class_array hr (by omega) hi hg _ _)) fun _ => ?_
  peel
  refine Wr.eAttr (w := fun o => W.int32 H o false) (strict_int32s false) rfl rfl fun _ => ?_
  peel
  refine Wr.elem (Wr.base hi hg (by decide) (write_int_32_signed hk (by omega) _ _ false)) fun _ => ?_
  peel
  refine Wr.eAttr (w := W.int32 H) strict_int32 rfl rfl fun _ => ?_
  peel
  refine Wr.elem (Wr.base hi hg (by decide) (write_int_32 hk (by omega) _ _)) fun _ => ?_
  peel
  refine Wr.eAttr (w := fun o => W.classArray H rec o ver) (strict_classArray _ _) rfl rfl fun _ => ?_
  peel
  refine Wr.elem (Wr.base hi hg (by decide) (write_class_array hr (by omega) hi hg _ _)) fun _ => ?_
  peel
  refine Wr.eAttr (w := fun o => W.int32 H o false) (strict_int32s false) rfl rfl fun _ => ?_
  peel
  refine Wr.elem (Wr.base hi hg (by decide) (write_int_32_signed hk (by omega) _ _ false)) fun _ => ?_
  peel
  refine Wr.eAttr (w := W.int32 H) strict_int32 rfl rfl fun _ => ?_
  peel
  refine Wr.elem (Wr.base hi hg (by decide) (write_int_32 hk (by omega) _ _)) fun _ => ?_
  peel
  refine Wr.eAttr (w := fun o => W.classArray H rec o ver) (strict_classArray _ _) rfl rfl fun _ => ?_
  peel
  refine Wr.elem (Wr.base hi hg (by decide) (write_class_array hr (by omega) hi hg _ _)) fun _ => ?_
  peel
  exact Wr.done' (by join_end)

/-- `ResearchResourceCost.to_bytes` — `/repo/src/genieutils/tech.py:21-26`. -/
theorem ResearchResourceCost_to_bytes : WritesAs n!"ResearchResourceCost" ResearchResourceCost.write := by
  intro H s r n rec self ver hk hr h2 hn hi
  have hg : IsGenie n!"ResearchResourceCost" := IsGenie.of (by decide +kernel)
  write_fun
  refine Wr.join ?_
  refine Wr.eAttr (w := W.int16 H) strict_int16 rfl rfl fun _ => ?_
  peel
  refine Wr.elem (Wr.base hi hg (by decide) (write_int_16 hk (by omega) _ _)) fun _ => ?_
  peel
  refine Wr.eAttr (w := W.int16 H) strict_int16 rfl rfl fun _ => ?_
  peel
  refine Wr.elem (Wr.base hi hg (by decide) (write_int_16 hk (by omega) _ _)) fun _ => ?_
  peel
  refine Wr.eAttr (w := W.int8 H) strict_int8 rfl rfl fun _ => ?_
  peel
  refine Wr.elem (Wr.base hi hg (by decide) (write_int_8 hk (by omega) _ _)) fun _ => ?_
  peel
  exact Wr.done' (by join_end)

/-- `ResearchLocation.to_bytes` — `/repo/src/genieutils/tech.py:45-51`. -/
theorem ResearchLocation_to_bytes : WritesAs n!"ResearchLocation" ResearchLocation.write := by
  intro H s r n rec self ver hk hr h2 hn hi
  have hg : IsGenie n!"ResearchLocation" := IsGenie.of (by decide +kernel)
  write_fun
  refine Wr.join ?_
  refine Wr.eAttr (w := W.int16 H) strict_int16 rfl rfl fun _ => ?_
  peel
  refine Wr.elem (Wr.base hi hg (by decide) (write_int_16 hk (by omega) _ _)) fun _ => ?_
  peel
  refine Wr.eAttr (w := W.int16 H) strict_int16 rfl rfl fun _ => ?_
  peel
  refine Wr.elem (Wr.base hi hg (by decide) (write_int_16 hk (by omega) _ _)) fun _ => ?_
  peel
  refine Wr.eAttr (w := W.int8 H) strict_int8 rfl rfl fun _ => ?_
  peel
  refine Wr.elem (Wr.base hi hg (by decide) (write_int_8 hk (by omega) _ _)) fun _ => ?_
  peel
  refine Wr.eAttr (w := W.int32 H) strict_int32 rfl rfl fun _ => ?_
  peel
  refine Wr.elem (Wr.base hi hg (by decide) (write_int_32 hk (by omega) _ _)) fun _ => ?_
  peel
  exact Wr.done' (by join_end)

/-- `Tech.to_bytes_88` — `/repo/src/genieutils/tech.py:193-211`. -/
theorem Tech_to_bytes_88 : WritesAs' n!"Tech" n!"to_bytes_88" Tech.write88 := by
  intro H s r n rec self ver hk hr h2 hn hi
  have hg : IsGenie n!"Tech" := IsGenie.of (by decide +kernel)
  write_fun
  refine Wr.join ?_
  refine Wr.eAttr (w := W.int16Array H) strict_int16Array rfl rfl fun _ => ?_
  peel
  refine Wr.elem (Wr.base hi hg (by decide) (write_int_16_array hk (by omega) hi hg _)) fun _ => ?_
  peel
  refine Wr.eAttr (w := fun o => W.classArray H rec o ver) (strict_classArray _ _) rfl rfl fun _ => ?_
  peel
  refine Wr.elem (Wr.base hi hg (by decide) (write_class_array hr (by omega) hi hg _ _)) fun _ => ?_
  peel
  refine Wr.eAttr (w := W.int16 H) strict_int16 rfl rfl fun _ => ?_
  peel
  refine Wr.elem (Wr.base hi hg (by decide) (write_int_16 hk (by omega) _ _)) fun _ => ?_
  peel
  refine Wr.eAttr (w := W.int16 H) strict_int16 rfl rfl fun _ => ?_
  peel
  refine Wr.elem (Wr.base hi hg (by decide) (write_int_16 hk (by omega) _ _)) fun _ => ?_
  peel
  refine Wr.eAttr (w := W.int16 H) strict_int16 rfl rfl fun _ => ?_
  peel
  refine Wr.elem (Wr.base hi hg (by decide) (write_int_16 hk (by omega) _ _)) fun _ => ?_
  peel
  refine Wr.eAttr (w := W.int32 H) strict_int32 rfl rfl fun _ => ?_
  peel
  refine Wr.elem (Wr.base hi hg (by decide) (write_int_32 hk (by omega) _ _)) fun _ => ?_
  peel
  refine Wr.eAttr (w := W.int32 H) strict_int32 rfl rfl fun _ => ?_
  peel
  refine Wr.elem (Wr.base hi hg (by decide) (write_int_32 hk (by omega) _ _)) fun _ => ?_
  peel
  refine Wr.eAttr (w := W.int16 H) strict_int16 rfl rfl fun _ => ?_
  peel
  refine Wr.elem (Wr.base hi hg (by decide) (write_int_16 hk (by omega) _ _)) fun _ => ?_
  peel
  refine Wr.eAttr (w := W.int16 H) strict_int16 rfl rfl fun _ => ?_
  peel
  refine Wr.elem (Wr.base hi hg (by decide) (write_int_16 hk (by omega) _ _)) fun _ => ?_
  peel
  refine Wr.eAttr (w := W.int16 H) strict_int16 rfl rfl fun _ => ?_
  peel
  refine Wr.elem (Wr.base hi hg (by decide) (write_int_16 hk (by omega) _ _)) fun _ => ?_
  peel
  refine Wr.eAttr (w := W.int32 H) strict_int32 rfl rfl fun _ => ?_
  peel
  refine Wr.elem (Wr.base hi hg (by decide) (write_int_32 hk (by omega) _ _)) fun _ => ?_
  peel
  refine Wr.eAttr (w := W.int32 H) strict_int32 rfl rfl fun _ => ?_
  peel
  refine Wr.elem (Wr.base hi hg (by decide) (write_int_32 hk (by omega) _ _)) fun _ => ?_
  peel
  refine Wr.eAttr (w := W.debugString) strict_debugString rfl rfl fun _ => ?_
  peel
  refine Wr.elem (Wr.base hi hg (by decide) (write_debug_string hk (by omega) hi hg _)) fun _ => ?_
  peel
  refine Wr.eAttr (w := W.int8 H) strict_int8 rfl rfl fun _ => ?_
  peel
  refine Wr.elem (Wr.base hi hg (by decide) (write_int_8 hk (by omega) _ _)) fun _ => ?_
  peel
  refine Wr.eLenAttr (w := W.int16 H) strict_int16 rfl rfl fun _ => ?_
  peel
  refine Wr.eLen (w := W.int16 H) strict_int16 fun _ => ?_
  peel
  refine Wr.elem (Wr.base hi hg (by decide) (write_int_16 hk (by omega) _ _)) fun _ => ?_
  peel
  refine Wr.eAttr (w := fun o => W.classArray H rec o ver) (strict_classArray _ _) rfl rfl fun _ => ?_
  peel
  refine Wr.elem (Wr.base hi hg (by decide) (write_class_array hr (by omega) hi hg _ _)) fun _ => ?_
  peel
  exact Wr.done' (by join_end)

/-- `Common.to_bytes` — `/repo/src/genieutils/techtree.py:21-26`. -/
theorem Common_to_bytes : WritesAs n!"Common" Common.write := by
  intro H s r n rec self ver hk hr h2 hn hi
  have hg : IsGenie n!"Common" := IsGenie.of (by decide +kernel)
  write_fun
  refine Wr.join ?_
  refine Wr.eAttr (w := W.int32 H) strict_int32 rfl rfl fun _ => ?_
  peel
  refine Wr.elem (Wr.base hi hg (by decide) (write_int_32 hk (by omega) _ _)) fun _ => ?_
  peel
  refine Wr.eAttr (w := W.int32Array H) strict_int32Array rfl rfl fun _ => ?_
  peel
  refine Wr.elem (Wr.base hi hg (by decide) (write_int_32_array hk (by omega) hi hg _)) fun _ => ?_
  peel
  refine Wr.eAttr (w := W.int32Array H) strict_int32Array rfl rfl fun _ => ?_
  peel
  refine Wr.elem (Wr.base hi hg (by decide) (write_int_32_array hk (by omega) hi hg _)) fun _ => ?_
  peel
  exact Wr.done' (by join_end)

/-- `TechTreeAge.to_bytes` — `/repo/src/genieutils/techtree.py:73-89`. -/
theorem TechTreeAge_to_bytes : WritesAs n!"TechTreeAge" TechTreeAge.write := by
  intro H s r n rec self ver hk hr h2 hn hi
  have hg : IsGenie n!"TechTreeAge" := IsGenie.of (by decide +kernel)
  write_fun
  refine Wr.join ?_
  refine Wr.eAttr (w := W.int32 H) strict_int32 rfl rfl fun _ => ?_
  peel
  refine Wr.elem (Wr.base hi hg (by decide) (write_int_32 hk (by omega) _ _)) fun _ => ?_
  peel
  refine Wr.eAttr (w := W.int8 H) strict_int8 rfl rfl fun _ => ?_
  peel
  refine Wr.elem (Wr.base hi hg (by decide) (write_int_8 hk (by omega) _ _)) fun _ => ?_
  peel
  refine Wr.eLenAttr (w := W.int8 H) strict_int8 rfl rfl fun _ => ?_
  peel
  refine Wr.eLen (w := W.int8 H) strict_int8 fun _ => ?_
  peel
  refine Wr.elem (Wr.base hi hg (by decide) (write_int_8 hk (by omega) _ _)) fun _ => ?_
  peel
  refine Wr.eAttr (w := W.int32Array H) strict_int32Array rfl rfl fun _ => ?_
  peel
  refine Wr.elem (Wr.base hi hg (by decide) (write_int_32_array hk (by omega) hi hg _)) fun _ => ?_
  peel
  refine Wr.eLenAttr (w := W.int8 H) strict_int8 rfl rfl fun _ => ?_
  peel
  refine Wr.eLen (w := W.int8 H) strict_int8 fun _ => ?_
  peel
  refine Wr.elem (Wr.base hi hg (by decide) (write_int_8 hk (by omega) _ _)) fun _ => ?_
  peel
  refine Wr.eAttr (w := W.int32Array H) strict_int32Array rfl rfl fun _ => ?_
  peel
  refine Wr.elem (Wr.base hi hg (by decide) (write_int_32_array hk (by omega) hi hg _)) fun _ => ?_
  peel
  refine Wr.eLenAttr (w := W.int8 H) strict_int8 rfl rfl fun _ => ?_
  peel
  refine Wr.eLen (w := W.int8 H) strict_int8 fun _ => ?_
  peel
  refine Wr.elem (Wr.base hi hg (by decide) (write_int_8 hk (by omega) _ _)) fun _ => ?_
  peel
  refine Wr.eAttr (w := W.int32Array H) strict_int32Array rfl rfl fun _ => ?_
  peel
  refine Wr.elem (Wr.base hi hg (by decide) (write_int_32_array hk (by omega) hi hg _)) fun _ => ?_
  peel
  refine Wr.eAttr (w := fun o => W.cls rec o ver) (strict_cls _ _) rfl rfl fun _ => ?_
  peel
  refine Wr.elem (Wr.base hi hg (by decide) (write_class hr (by omega) _ _ _)) fun _ => ?_
  peel
  refine Wr.eAttr (w := W.int8 H) strict_int8 rfl rfl fun _ => ?_
  peel
  refine Wr.elem (Wr.base hi hg (by decide) (write_int_8 hk (by omega) _ _)) fun _ => ?_
  peel
  refine Wr.eAttr (w := W.int8Array H) strict_int8Array rfl rfl fun _ => ?_
  peel
  refine Wr.elem (Wr.base hi hg (by decide) (write_int_8_array hk (by omega) hi hg _)) fun _ => ?_
  peel
  refine Wr.eAttr (w := W.int8Array H) strict_int8Array rfl rfl fun _ => ?_
  peel
  refine Wr.elem (Wr.base hi hg (by decide) (write_int_8_array hk (by omega) hi hg _)) fun _ => ?_
  peel
  refine Wr.eAttr (w := W.int8 H) strict_int8 rfl rfl fun _ => ?_
  peel
  refine Wr.elem (Wr.base hi hg (by decide) (write_int_8 hk (by omega) _ _)) fun _ => ?_
  peel
  refine Wr.eAttr (w := W.int32 H) strict_int32 rfl rfl fun _ => ?_
  peel
  refine Wr.elem (Wr.base hi hg (by decide) (write_int_32 hk (by omega) _ _)) fun _ => ?_
  peel
  exact Wr.done' (by join_end)

/-- `BuildingConnection.to_bytes` — `/repo/src/genieutils/techtree.py:136-152`. -/
theorem BuildingConnection_to_bytes : WritesAs n!"BuildingConnection" BuildingConnection.write := by
  intro H s r n rec self ver hk hr h2 hn hi
  have hg : IsGenie n!"BuildingConnection" := IsGenie.of (by decide +kernel)
  write_fun
  refine Wr.join ?_
  refine Wr.eAttr (w := W.int32 H) strict_int32 rfl rfl fun _ => ?_
  peel
  refine Wr.elem (Wr.base hi hg (by decide) (write_int_32 hk (by omega) _ _)) fun _ => ?_
  peel
  refine Wr.eAttr (w := W.int8 H) strict_int8 rfl rfl fun _ => ?_
  peel
  refine Wr.elem (Wr.base hi hg (by decide) (write_int_8 hk (by omega) _ _)) fun _ => ?_
  peel
  refine Wr.eLenAttr (w := W.int8 H) strict_int8 rfl rfl fun _ => ?_
  peel
  refine Wr.eLen (w := W.int8 H) strict_int8 fun _ => ?_
  peel
  refine Wr.elem (Wr.base hi hg (by decide) (write_int_8 hk (by omega) _ _)) fun _ => ?_
  peel
  refine Wr.eAttr (w := W.int32Array H) strict_int32Array rfl rfl fun _ => ?_
  peel
  refine Wr.elem (Wr.base hi hg (by decide) (write_int_32_array hk (by omega) hi hg _)) fun _ => ?_
  peel
  refine Wr.eLenAttr (w := W.int8 H) strict_int8 rfl rfl fun _ => ?_
  peel
  refine Wr.eLen (w := W.int8 H) strict_int8 fun _ => ?_
  peel
  refine Wr.elem (Wr.base hi hg (by decide) (write_int_8 hk (by omega) _ _)) fun _ => ?_
  peel
  refine Wr.eAttr (w := W.int32Array H) strict_int32Array rfl rfl fun _ => ?_
  peel
  refine Wr.elem (Wr.base hi hg (by decide) (write_int_32_array hk (by omega) hi hg _)) fun _ => ?_
  peel
  refine Wr.eLenAttr (w := W.int8 H) strict_int8 rfl rfl fun _ => ?_
  peel
  refine Wr.eLen (w := W.int8 H) strict_int8 fun _ => ?_
  peel
  refine Wr.elem (Wr.base hi hg (by decide) (write_int_8 hk (by omega) _ _)) fun _ => ?_
  peel
  refine Wr.eAttr (w := W.int32Array H) strict_int32Array rfl rfl fun _ => ?_
  peel
  refine Wr.elem (Wr.base hi hg (by decide) (write_int_32_array hk (by omega) hi hg _)) fun _ => ?_
  peel
  refine Wr.eAttr (w := fun o => W.cls rec o ver) (strict_cls _ _) rfl rfl fun _ => ?_
  peel
  refine Wr.elem (Wr.base hi hg (by decide) (write_class hr (by omega) _ _ _)) fun _ => ?_
  peel
  refine Wr.eAttr (w := W.int8 H) strict_int8 rfl rfl fun _ => ?_
  peel
  refine Wr.elem (Wr.base hi hg (by decide) (write_int_8 hk (by omega) _ _)) fun _ => ?_
  peel
  refine Wr.eAttr (w := W.int8Array H) strict_int8Array rfl rfl fun _ => ?_
  peel
  refine Wr.elem (Wr.base hi hg (by decide) (write_int_8_array hk (by omega) hi hg _)) fun _ => ?_
  peel
  refine Wr.eAttr (w := W.int8Array H) strict_int8Array rfl rfl fun _ => ?_
  peel
  refine Wr.elem (Wr.base hi hg (by decide) (write_int_8_array hk (by omega) hi hg _)) fun _ => ?_
  peel
  refine Wr.eAttr (w := W.int32 H) strict_int32 rfl rfl fun _ => ?_
  peel
  refine Wr.elem (Wr.base hi hg (by decide) (write_int_32 hk (by omega) _ _)) fun _ => ?_
  peel
  refine Wr.eAttr (w := W.int32 H) strict_int32 rfl rfl fun _ => ?_
  peel
  refine Wr.elem (Wr.base hi hg (by decide) (write_int_32 hk (by omega) _ _)) fun _ => ?_
  peel
  exact Wr.done' (by join_end)

/-- `UnitConnection.to_bytes` — `/repo/src/genieutils/techtree.py:194-207`. -/
theorem UnitConnection_to_bytes : WritesAs n!"UnitConnection" UnitConnection.write := by
  intro H s r n rec self ver hk hr h2 hn hi
  have hg : IsGenie n!"UnitConnection" := IsGenie.of (by decide +kernel)
  write_fun
  refine Wr.join ?_
  refine Wr.eAttr (w := W.int32 H) strict_int32 rfl rfl fun _ => ?_
  peel
  refine Wr.elem (Wr.base hi hg (by decide) (write_int_32 hk (by omega) _ _)) fun _ => ?_
  peel
  refine Wr.eAttr (w := W.int8 H) strict_int8 rfl rfl fun _ => ?_
  peel
  refine Wr.elem (Wr.base hi hg (by decide) (write_int_8 hk (by omega) _ _)) fun _ => ?_
  peel
  refine Wr.eAttr (w := W.int32 H) strict_int32 rfl rfl fun _ => ?_
  peel
  refine Wr.elem (Wr.base hi hg (by decide) (write_int_32 hk (by omega) _ _)) fun _ => ?_
  peel
  refine Wr.eAttr (w := fun o => W.cls rec o ver) (strict_cls _ _) rfl rfl fun _ => ?_
  peel
  refine Wr.elem (Wr.base hi hg (by decide) (write_class hr (by omega) _ _ _)) fun _ => ?_
  peel
  refine Wr.eAttr (w := W.int32 H) strict_int32 rfl rfl fun _ => ?_
  peel
  refine Wr.elem (Wr.base hi hg (by decide) (write_int_32 hk (by omega) _ _)) fun _ => ?_
  peel
  refine Wr.eLenAttr (w := W.int8 H) strict_int8 rfl rfl fun _ => ?_
  peel
  refine Wr.eLen (w := W.int8 H) strict_int8 fun _ => ?_
  peel
  refine Wr.elem (Wr.base hi hg (by decide) (write_int_8 hk (by omega) _ _)) fun _ => ?_
  peel
  refine Wr.eAttr (w := W.int32Array H) strict_int32Array rfl rfl fun _ => ?_
  peel
  refine Wr.elem (Wr.base hi hg (by decide) (write_int_32_array hk (by omega) hi hg _)) fun _ => ?_
  peel
  refine Wr.eAttr (w := W.int32 H) strict_int32 rfl rfl fun _ => ?_
  peel
  refine Wr.elem (Wr.base hi hg (by decide) (write_int_32 hk (by omega) _ _)) fun _ => ?_
  peel
  refine Wr.eAttr (w := W.int32 H) strict_int32 rfl rfl fun _ => ?_
  peel
  refine Wr.elem (Wr.base hi hg (by decide) (write_int_32 hk (by omega) _ _)) fun _ => ?_
  peel
  refine Wr.eAttr (w := W.int32 H) strict_int32 rfl rfl fun _ => ?_
  peel
  refine Wr.elem (Wr.base hi hg (by decide) (write_int_32 hk (by omega) _ _)) fun _ => ?_
  peel
  refine Wr.eAttr (w := W.int32 H) strict_int32 rfl rfl fun _ => ?_
  peel
  refine Wr.elem (Wr.base hi hg (by decide) (write_int_32 hk (by omega) _ _)) fun _ => ?_
  peel
  exact Wr.done' (by join_end)

/-- `ResearchConnection.to_bytes` — `/repo/src/genieutils/techtree.py:251-266`. -/
theorem ResearchConnection_to_bytes : WritesAs n!"ResearchConnection" ResearchConnection.write := by
  intro H s r n rec self ver hk hr h2 hn hi
  have hg : IsGenie n!"ResearchConnection" := IsGenie.of (by decide +kernel)
  write_fun
  refine Wr.join ?_
  refine Wr.eAttr (w := W.int32 H) strict_int32 rfl rfl fun _ => ?_
  peel
  refine Wr.elem (Wr.base hi hg (by decide) (write_int_32 hk (by omega) _ _)) fun _ => ?_
  peel
  refine Wr.eAttr (w := W.int8 H) strict_int8 rfl rfl fun _ => ?_
  peel
  refine Wr.elem (Wr.base hi hg (by decide) (write_int_8 hk (by omega) _ _)) fun _ => ?_
  peel
  refine Wr.eAttr (w := W.int32 H) strict_int32 rfl rfl fun _ => ?_
  peel
  refine Wr.elem (Wr.base hi hg (by decide) (write_int_32 hk (by omega) _ _)) fun _ => ?_
  peel
  refine Wr.eLenAttr (w := W.int8 H) strict_int8 rfl rfl fun _ => ?_
  peel
  refine Wr.eLen (w := W.int8 H) strict_int8 fun _ => ?_
  peel
  refine Wr.elem (Wr.base hi hg (by decide) (write_int_8 hk (by omega) _ _)) fun _ => ?_
  peel
  refine Wr.eAttr (w := W.int32Array H) strict_int32Array rfl rfl fun _ => ?_
  peel
  refine Wr.elem (Wr.base hi hg (by decide) (write_int_32_array hk (by omega) hi hg _)) fun _ => ?_
  peel
  refine Wr.eLenAttr (w := W.int8 H) strict_int8 rfl rfl fun _ => ?_
  peel
  refine Wr.eLen (w := W.int8 H) strict_int8 fun _ => ?_
  peel
  refine Wr.elem (Wr.base hi hg (by decide) (write_int_8 hk (by omega) _ _)) fun _ => ?_
  peel
  refine Wr.eAttr (w := W.int32Array H) strict_int32Array rfl rfl fun _ => ?_
  peel
  refine Wr.elem (Wr.base hi hg (by decide) (write_int_32_array hk (by omega) hi hg _)) fun _ => ?_
  peel
  refine Wr.eLenAttr (w := W.int8 H) strict_int8 rfl rfl fun _ => ?_
  peel
  refine Wr.eLen (w := W.int8 H) strict_int8 fun _ => ?_
  peel
  refine Wr.elem (Wr.base hi hg (by decide) (write_int_8 hk (by omega) _ _)) fun _ => ?_
  peel
  refine Wr.eAttr (w := W.int32Array H) strict_int32Array rfl rfl fun _ => ?_
  peel
  refine Wr.elem (Wr.base hi hg (by decide) (write_int_32_array hk (by omega) hi hg _)) fun _ => ?_
  peel
  refine Wr.eAttr (w := fun o => W.cls rec o ver) (strict_cls _ _) rfl rfl fun _ => ?_
  peel
  refine Wr.elem (Wr.base hi hg (by decide) (write_class hr (by omega) _ _ _)) fun _ => ?_
  peel
  refine Wr.eAttr (w := W.int32 H) strict_int32 rfl rfl fun _ => ?_
  peel
  refine Wr.elem (Wr.base hi hg (by decide) (write_int_32 hk (by omega) _ _)) fun _ => ?_
  peel
  refine Wr.eAttr (w := W.int32 H) strict_int32 rfl rfl fun _ => ?_
  peel
  refine Wr.elem (Wr.base hi hg (by decide) (write_int_32 hk (by omega) _ _)) fun _ => ?_
  peel
  refine Wr.eAttr (w := W.int32 H) strict_int32 rfl rfl fun _ => ?_
  peel
  refine Wr.elem (Wr.base hi hg (by decide) (write_int_32 hk (by omega) _ _)) fun _ => ?_
  peel
  exact Wr.done' (by join_end)

/-- `TechTree.to_bytes` — `/repo/src/genieutils/techtree.py:296-307`. -/
theorem TechTree_to_bytes : WritesAs n!"TechTree" TechTree.write := by
  intro H s r n rec self ver hk hr h2 hn hi
  have hg : IsGenie n!"TechTree" := IsGenie.of (by decide +kernel)
  write_fun
  refine Wr.join ?_
  refine Wr.eLenAttr (w := W.int8 H) strict_int8 rfl rfl fun _ => ?_
  peel
  refine Wr.eLen (w := W.int8 H) strict_int8 fun _ => ?_
  peel
  refine Wr.elem (Wr.base hi hg (by decide) (write_int_8 hk (by omega) _ _)) fun _ => ?_
  peel
  refine Wr.eLenAttr (w := W.int8 H) strict_int8 rfl rfl fun _ => ?_
  peel
  refine Wr.eLen (w := W.int8 H) strict_int8 fun _ => ?_
  peel
  refine Wr.elem (Wr.base hi hg (by decide) (write_int_8 hk (by omega) _ _)) fun _ => ?_
  peel
  refine Wr.eLenAttr (w := W.int8 H) strict_int8 rfl rfl fun _ => ?_
  peel
  refine Wr.eLen (w := W.int8 H) strict_int8 fun _ => ?_
  peel
  refine Wr.elem (Wr.base hi hg (by decide) (write_int_8 hk (by omega) _ _)) fun _ => ?_
  peel
  refine Wr.eLenAttr (w := W.int8 H) strict_int8 rfl rfl fun _ => ?_
  peel
  refine Wr.eLen (w := W.int8 H) strict_int8 fun _ => ?_
  peel
  refine Wr.elem (Wr.base hi hg (by decide) (write_int_8 hk (by omega) _ _)) fun _ => ?_
  peel
  refine Wr.eAttr (w := W.int32 H) strict_int32 rfl rfl fun _ => ?_
  peel
  refine Wr.elem (Wr.base hi hg (by decide) (write_int_32 hk (by omega) _ _)) fun _ => ?_
  peel
  refine Wr.eAttr (w := fun o => W.classArray H rec o ver) (strict_classArray _ _) rfl rfl fun _ => ?_
  peel
  refine Wr.elem (Wr.base hi hg (by decide) (write_class_array hr (by omega) hi hg _ _)) fun _ => ?_
  peel
  refine Wr.eAttr (w := fun o => W.classArray H rec o ver) (strict_classArray _ _) rfl rfl fun _ => ?_
  peel
  refine Wr.elem (Wr.base hi hg (by decide) (write_class_array hr (by omega) hi hg _ _)) fun _ => ?_
  peel
  refine Wr.eAttr (w := fun o => W.classArray H rec o ver) (strict_classArray _ _) rfl rfl fun _ => ?_
  peel
  refine Wr.elem (Wr.base hi hg (by decide) (write_class_array hr (by omega) hi hg _ _)) fun _ => ?_
  peel
  refine Wr.eAttr (w := fun o => W.classArray H rec o ver) (strict_classArray _ _) rfl rfl fun _ => ?_
  peel
  refine Wr.elem (Wr.base hi hg (by decide) (write_class_array hr (by omega) hi hg _ _)) fun _ => ?_
  peel
  exact Wr.done' (by join_end)

/-- `Task.to_bytes_84` — `/repo/src/genieutils/task.py:206-239`. -/
theorem Task_to_bytes_84 : WritesAs' n!"Task" n!"to_bytes_84" Task.write84 := by
  intro H s r n rec self ver hk hr h2 hn hi
  have hg : IsGenie n!"Task" := IsGenie.of (by decide +kernel)
  write_fun
  refine Wr.pack ?_
  refine Wr.pArg (Wr.attr rfl rfl) fun _ => ?_
  peel
  refine Wr.pArg (Wr.attr rfl rfl) fun _ => ?_
  peel
  refine Wr.pArg (Wr.attr rfl rfl) fun _ => ?_
  peel
  refine Wr.pArg (Wr.attr rfl rfl) fun _ => ?_
  peel
  refine Wr.pArg (Wr.attr rfl rfl) fun _ => ?_
  peel
  refine Wr.pArg (Wr.attr rfl rfl) fun _ => ?_
  peel
  refine Wr.pArg (Wr.attr rfl rfl) fun _ => ?_
  peel
  refine Wr.pArg (Wr.attr rfl rfl) fun _ => ?_
  peel
  refine Wr.pArg (Wr.attr rfl rfl) fun _ => ?_
  peel
  refine Wr.pArg (Wr.attr rfl rfl) fun _ => ?_
  peel
  refine Wr.pArg (Wr.attr rfl rfl) fun _ => ?_
  peel
  refine Wr.pArg (Wr.attr rfl rfl) fun _ => ?_
  peel
  refine Wr.pArg (Wr.attr rfl rfl) fun _ => ?_
  peel
  refine Wr.pArg (Wr.attr rfl rfl) fun _ => ?_
  peel
  refine Wr.pArg (Wr.attr rfl rfl) fun _ => ?_
  peel
  refine Wr.pArg (Wr.attr rfl rfl) fun _ => ?_
  peel
  refine Wr.pArg (Wr.attr rfl rfl) fun _ => ?_
  peel
  refine Wr.pArg (Wr.attr rfl rfl) fun _ => ?_
  peel
  refine Wr.pArg (Wr.attr rfl rfl) fun _ => ?_
  peel
  refine Wr.pArg (Wr.attr rfl rfl) fun _ => ?_
  peel
  refine Wr.pArg (Wr.attr rfl rfl) fun _ => ?_
  peel
  refine Wr.pArg (Wr.attr rfl rfl) fun _ => ?_
  peel
  refine Wr.pArg (Wr.attr rfl rfl) fun _ => ?_
  peel
  refine Wr.pArg (Wr.attr rfl rfl) fun _ => ?_
  peel
  refine Wr.pArg (Wr.attr rfl rfl) fun _ => ?_
  peel
  refine Wr.pArg (Wr.attr rfl rfl) fun _ => ?_
  peel
  refine Wr.pArg (Wr.attr rfl rfl) fun _ => ?_
  peel
  refine Wr.pArg (Wr.attr rfl rfl) fun _ => ?_
  peel
  refine Wr.pArg (Wr.attr rfl rfl) fun _ => ?_
  peel
  refine Wr.pArg (Wr.attr rfl rfl) fun _ => ?_
  peel
  refine Wr.pArg (Wr.attr rfl rfl) fun _ => ?_
  peel
  refine Wr.packEnd (by decide) (by pack_args) fun _ => ?_
  peel
  exact Wr.done' rfl

/-- `Task.to_bytes_88` — `/repo/src/genieutils/task.py:242-276`. -/
theorem Task_to_bytes_88 : WritesAs' n!"Task" n!"to_bytes_88" Task.write88 := by
  intro H s r n rec self ver hk hr h2 hn hi
  have hg : IsGenie n!"Task" := IsGenie.of (by decide +kernel)
  write_fun
  refine Wr.pack ?_
  refine Wr.pArg (Wr.attr rfl rfl) fun _ => ?_
  peel
  refine Wr.pArg (Wr.attr rfl rfl) fun _ => ?_
  peel
  refine Wr.pArg (Wr.attr rfl rfl) fun _ => ?_
  peel
  refine Wr.pArg (Wr.attr rfl rfl) fun _ => ?_
  peel
  refine Wr.pArg (Wr.attr rfl rfl) fun _ => ?_
  peel
  refine Wr.pArg (Wr.attr rfl rfl) fun _ => ?_
  peel
  refine Wr.pArg (Wr.attr rfl rfl) fun _ => ?_
  peel
  refine Wr.pArg (Wr.attr rfl rfl) fun _ => ?_
  peel
  refine Wr.pArg (Wr.attr rfl rfl) fun _ => ?_
  peel
  refine Wr.pArg (Wr.attr rfl rfl) fun _ => ?_
  peel
  refine Wr.pArg (Wr.attr rfl rfl) fun _ => ?_
  peel
  refine Wr.pArg (Wr.attr rfl rfl) fun _ => ?_
  peel
  refine Wr.pArg (Wr.attr rfl rfl) fun _ => ?_
  peel
  refine Wr.pArg (Wr.attr rfl rfl) fun _ => ?_
  peel
  refine Wr.pArg (Wr.attr rfl rfl) fun _ => ?_
  peel
  refine Wr.pArg (Wr.attr rfl rfl) fun _ => ?_
  peel
  refine Wr.pArg (Wr.attr rfl rfl) fun _ => ?_
  peel
  refine Wr.pArg (Wr.attr rfl rfl) fun _ => ?_
  peel
  refine Wr.pArg (Wr.attr rfl rfl) fun _ => ?_
  peel
  refine Wr.pArg (Wr.attr rfl rfl) fun _ => ?_
  peel
  refine Wr.pArg (Wr.attr rfl rfl) fun _ => ?_
  peel
  refine Wr.pArg (Wr.attr rfl rfl) fun _ => ?_
  peel
  refine Wr.pArg (Wr.attr rfl rfl) fun _ => ?_
  peel
  refine Wr.pArg (Wr.attr rfl rfl) fun _ => ?_
  peel
  refine Wr.pArg (Wr.attr rfl rfl) fun _ => ?_
  peel
  refine Wr.pArg (Wr.attr rfl rfl) fun _ => ?_
  peel
  refine Wr.pArg (Wr.attr rfl rfl) fun _ => ?_
  peel
  refine Wr.pArg (Wr.attr rfl rfl) fun _ => ?_
  peel
  refine Wr.pArg (Wr.attr rfl rfl) fun _ => ?_
  peel
  refine Wr.pArg (Wr.attr rfl rfl) fun _ => ?_
  peel
  refine Wr.pArg (Wr.attr rfl rfl) fun _ => ?_
  peel
  refine Wr.pArg (Wr.attr rfl rfl) fun _ => ?_
  peel
  refine Wr.packEnd (by decide) (by pack_args) fun _ => ?_
  peel
  exact Wr.done' rfl

/-- `Task.to_bytes` — `/repo/src/genieutils/task.py:200-203`. -/
theorem Task_to_bytes : WritesAs n!"Task" Task.write := by
  intro H s r n rec self ver hk hr h2 hn hi
  have hg : IsGenie n!"Task" := IsGenie.of (by decide +kernel)
  write_fun
  refine Wr.ifVersion (by omega) (fun _ => ?_) (fun _ => ?_)
  · peel
    first | refine Wr.mapOk (φ := PVal.bytes) (Wr.method hi ?_) fun _ => ?_ | (refine Wr.assoc ?_; refine Wr.mapOk (φ := PVal.bytes) (Wr.method hi ?_) fun _ => ?_)
    · exact Task_to_bytes_88 ver hk hr h2 (by omega) hi
    · peel
      exact Wr.done' rfl
  · peel
    first | refine Wr.mapOk (φ := PVal.bytes) (Wr.method hi ?_) fun _ => ?_ | (refine Wr.assoc ?_; refine Wr.mapOk (φ := PVal.bytes) (Wr.method hi ?_) fun _ => ?_)
    · exact Task_to_bytes_84 ver hk hr h2 (by omega) hi
    · peel
      exact Wr.done' rfl

end Genie.Src
