import Verif.Proof.Source.Units84
import Verif.Proof.Source.Units88
/-!
# The source of the `from_bytes` functions of `Unit`, `UnitHeaders`, `Civ` and `DatFile` does what the model says (generated by
`tools/gen_source_readers.py`)
-/

set_option linter.unusedVariables false

namespace Genie.Src

-- keeps the elaborator from evaluating it
attribute [local irreducible] Genie.TerrainBlock.build

/-- `Unit.from_bytes` — `/repo/src/genieutils/unit.py:1136-1139`. -/
theorem Unit_from_bytes : ReadsAs 9 n!"Unit" Unit.build := by
  intro n hn
  call_fun
  unfold Unit.build
  refine Same.bind Same.version fun v => ?_
  peel
  refine Same.pureBind (version_ge (by omega) v _) ?_
  peel
  refine Same.iteBind (by simp) (fun _ => ?_) fun _ => ?_
  · peel
    exact Same.ret (Unit_from_bytes_88 _ (by omega))
  · peel
    exact (Unit_from_bytes_84 _ (by omega)).tail _

/-- `UnitHeaders.from_bytes` — `/repo/src/genieutils/unitheaders.py:14-23`. -/
theorem UnitHeaders_from_bytes : ReadsAs 5 n!"UnitHeaders" UnitHeaders.build := by
  intro n hn
  call_fun
  unfold UnitHeaders.build
  refine Same.bind (read_int_8 (by omega)) fun _ => ?_
  peel
  refine Same.iteBind (ne_decide _) (fun _ => ?_) fun _ => ?_
  · peel
    refine Same.assoc ?_
    refine Same.bind (read_int_16 (by omega)) fun _ => ?_
    peel
    refine Same.assoc ?_
    refine Same.bind (read_class_array Task_from_bytes (by omega) (by omega) _ _) fun _ => ?_
    peel
    exact (Same.allocH (by rfl)).tail _
  · peel
    exact (Same.allocH (by rfl)).tail _

/-- `Civ.from_bytes` — `/repo/src/genieutils/civ.py:19-38`. -/
theorem Civ_from_bytes : ReadsAs 11 n!"Civ" Civ.build := by
  intro n hn
  call_fun
  unfold Civ.build
  refine Same.bind (read_int_8 (by omega)) fun _ => ?_
  peel
  refine Same.bind (read_debug_string (by omega)) fun _ => ?_
  peel
  refine Same.bind (read_int_16 (by omega)) fun _ => ?_
  peel
  refine Same.bind (read_int_16 (by omega)) fun _ => ?_
  peel
  refine Same.bind (read_int_16 (by omega)) fun _ => ?_
  peel
  refine Same.bind (read_float_array (by omega) _) fun _ => ?_
  peel
  refine Same.bind (read_int_8 (by omega)) fun _ => ?_
  peel
  refine Same.bind (read_int_16 (by omega)) fun _ => ?_
  peel
  refine Same.bind (read_int_32_array (by omega) _) fun _ => ?_
  peel
  refine Same.bind (read_class_array_with_pointers Unit_from_bytes (by omega) (by omega) _ _) fun _ => ?_
  peel
  exact (Same.allocH (by rfl)).tail _

set_option maxHeartbeats 0 in
/-- `DatFile.from_bytes` — `/repo/src/genieutils/datfile.py:58-114` (the `noteLossy` line is ghost, see `DatFile.fromBytes`). -/
theorem DatFile_from_bytes : ReadsAs 13 n!"DatFile" DatFile.build := by
  intro n hn
  call_fun
  unfold DatFile.build
  refine Same.bind (read_string (by omega) 8) fun _ => ?_
  peel
  refine Same.bind (Same.versionOf _) fun _ => ?_
  peel
  refine Same.bind (Same.setVersion _) fun _ => ?_
  peel
  refine Same.bind (read_int_16 (by omega)) fun _ => ?_
  peel
  refine Same.bind (read_int_16 (by omega)) fun _ => ?_
  peel
  refine Same.bind (read_int_32_array (by omega) _) fun _ => ?_
  peel
  refine Same.bind (read_int_32_array (by omega) _) fun _ => ?_
  peel
  refine Same.bind (read_class_array_with_param TerrainRestriction_from_bytes_with_count (by omega) (by omega) _ _) fun _ => ?_
  peel
  refine Same.ghost ?_
  refine Same.bind (read_int_16 (by omega)) fun _ => ?_
  peel
  refine Same.bind (read_class_array PlayerColour_from_bytes (by omega) (by omega) _ _) fun _ => ?_
  peel
  refine Same.bind (read_int_16 (by omega)) fun _ => ?_
  peel
  refine Same.bind (read_class_array Sound_from_bytes (by omega) (by omega) _ _) fun _ => ?_
  peel
  refine Same.bind (read_int_16 (by omega)) fun _ => ?_
  peel
  refine Same.bind (read_int_32_array (by omega) _) fun _ => ?_
  peel
  refine Same.bind (read_class_array_with_pointers Graphic_from_bytes (by omega) (by omega) _ _) fun _ => ?_
  peel
  refine Same.bind (read_class TerrainBlock_from_bytes (by omega)) fun _ => ?_
  peel
  refine Same.bind (read_class RandomMaps_from_bytes (by omega)) fun _ => ?_
  peel
  refine Same.bind (read_int_32 (by omega)) fun _ => ?_
  peel
  refine Same.bind (read_class_array Effect_from_bytes (by omega) (by omega) _ _) fun _ => ?_
  peel
  refine Same.bind (read_int_32 (by omega)) fun _ => ?_
  peel
  refine Same.bind (read_class_array UnitHeaders_from_bytes (by omega) (by omega) _ _) fun _ => ?_
  peel
  refine Same.bind (read_int_16 (by omega)) fun _ => ?_
  peel
  refine Same.bind (read_class_array Civ_from_bytes (by omega) (by omega) _ _) fun _ => ?_
  peel
  refine Same.bind (read_int_16 (by omega)) fun _ => ?_
  peel
  refine Same.bind (read_class_array Tech_from_bytes (by omega) (by omega) _ _) fun _ => ?_
  peel
  refine Same.bind (read_int_32 (by omega)) fun _ => ?_
  peel
  refine Same.bind (read_int_32 (by omega)) fun _ => ?_
  peel
  refine Same.bind (read_int_32 (by omega)) fun _ => ?_
  peel
  refine Same.bind (read_int_32 (by omega)) fun _ => ?_
  peel
  refine Same.bind (read_int_32 (by omega)) fun _ => ?_
  peel
  refine Same.bind (read_int_32 (by omega)) fun _ => ?_
  peel
  refine Same.bind (read_int_32 (by omega)) fun _ => ?_
  peel
  refine Same.bind (read_class TechTree_from_bytes (by omega)) fun _ => ?_
  peel
  exact (Same.allocH (by rfl)).tail _

end Genie.Src
