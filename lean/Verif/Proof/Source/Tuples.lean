import Verif.Proof.Source.Handler
/-!
# The source of the array readers of `ByteHandler` does what the model says (generated by `tools/gen_source_readers.py`)
-/

namespace Genie.Src

/-- `read_int_16_array` — `/repo/src/genieutils/common.py:164-168`. -/
theorem read_int_16_array {n : Nat} (hn : 3 ≤ n) (k : Int) :
    Same PVal.h (callN n .handler n!"ByteHandler" n!"read_int_16_array" ⟨[.h (.int k)], []⟩) (HReader.readInt16Array k) := by
  call_fun
  exact fill_array (by omega) (HReader_int_same (read_int_16 (by omega))) _ _

/-- `read_int_32_array` — `/repo/src/genieutils/common.py:200-204`. -/
theorem read_int_32_array {n : Nat} (hn : 3 ≤ n) (k : Int) :
    Same PVal.h (callN n .handler n!"ByteHandler" n!"read_int_32_array" ⟨[.h (.int k)], []⟩) (HReader.readInt32Array k) := by
  call_fun
  exact fill_array (by omega) (HReader_int_same (read_int_32 (by omega))) _ _

/-- `read_float_array` — `/repo/src/genieutils/common.py:223-227`. -/
theorem read_float_array {n : Nat} (hn : 3 ≤ n) (k : Int) :
    Same PVal.h (callN n .handler n!"ByteHandler" n!"read_float_array" ⟨[.h (.int k)], []⟩) (HReader.readFloatArray k) := by
  call_fun
  exact fill_array (by omega) (HReader_float_same (read_float (by omega))) _ _

/-- `read_int_8_array_2` — `/repo/src/genieutils/common.py:119-122`. -/
theorem read_int_8_array_2 {n : Nat} (hn : 3 ≤ n) :
    Same PVal.h (callN n .handler n!"ByteHandler" n!"read_int_8_array_2" ⟨[], []⟩) HReader.readInt8Array2 := by
  call_fun
  refine Same.bind (HReader_int_same (read_int_8 (by omega))) fun _ => ?_
  peel
  refine Same.bind (HReader_int_same (read_int_8 (by omega))) fun _ => ?_
  peel
  exact (Same.allocH rfl).tail _

/-- `read_int_8_array_3` — `/repo/src/genieutils/common.py:124-128`. -/
theorem read_int_8_array_3 {n : Nat} (hn : 3 ≤ n) :
    Same PVal.h (callN n .handler n!"ByteHandler" n!"read_int_8_array_3" ⟨[], []⟩) HReader.readInt8Array3 := by
  call_fun
  refine Same.bind (HReader_int_same (read_int_8 (by omega))) fun _ => ?_
  peel
  refine Same.bind (HReader_int_same (read_int_8 (by omega))) fun _ => ?_
  peel
  refine Same.bind (HReader_int_same (read_int_8 (by omega))) fun _ => ?_
  peel
  exact (Same.allocH rfl).tail _

/-- `read_int_8_array_5` — `/repo/src/genieutils/common.py:130-136`. -/
theorem read_int_8_array_5 {n : Nat} (hn : 3 ≤ n) :
    Same PVal.h (callN n .handler n!"ByteHandler" n!"read_int_8_array_5" ⟨[], []⟩) HReader.readInt8Array5 := by
  call_fun
  refine Same.bind (HReader_int_same (read_int_8 (by omega))) fun _ => ?_
  peel
  refine Same.bind (HReader_int_same (read_int_8 (by omega))) fun _ => ?_
  peel
  refine Same.bind (HReader_int_same (read_int_8 (by omega))) fun _ => ?_
  peel
  refine Same.bind (HReader_int_same (read_int_8 (by omega))) fun _ => ?_
  peel
  refine Same.bind (HReader_int_same (read_int_8 (by omega))) fun _ => ?_
  peel
  exact (Same.allocH rfl).tail _

/-- `read_int_8_array_10` — `/repo/src/genieutils/common.py:147-159`. -/
theorem read_int_8_array_10 {n : Nat} (hn : 3 ≤ n) :
    Same PVal.h (callN n .handler n!"ByteHandler" n!"read_int_8_array_10" ⟨[], []⟩) HReader.readInt8Array10 := by
  call_fun
  refine Same.bind (HReader_int_same (read_int_8 (by omega))) fun _ => ?_
  peel
  refine Same.bind (HReader_int_same (read_int_8 (by omega))) fun _ => ?_
  peel
  refine Same.bind (HReader_int_same (read_int_8 (by omega))) fun _ => ?_
  peel
  refine Same.bind (HReader_int_same (read_int_8 (by omega))) fun _ => ?_
  peel
  refine Same.bind (HReader_int_same (read_int_8 (by omega))) fun _ => ?_
  peel
  refine Same.bind (HReader_int_same (read_int_8 (by omega))) fun _ => ?_
  peel
  refine Same.bind (HReader_int_same (read_int_8 (by omega))) fun _ => ?_
  peel
  refine Same.bind (HReader_int_same (read_int_8 (by omega))) fun _ => ?_
  peel
  refine Same.bind (HReader_int_same (read_int_8 (by omega))) fun _ => ?_
  peel
  refine Same.bind (HReader_int_same (read_int_8 (by omega))) fun _ => ?_
  peel
  exact (Same.allocH rfl).tail _

/-- `read_int_16_array_2` — `/repo/src/genieutils/common.py:170-173`. -/
theorem read_int_16_array_2 {n : Nat} (hn : 3 ≤ n) :
    Same PVal.h (callN n .handler n!"ByteHandler" n!"read_int_16_array_2" ⟨[], []⟩) HReader.readInt16Array2 := by
  call_fun
  refine Same.bind (HReader_int_same (read_int_16 (by omega))) fun _ => ?_
  peel
  refine Same.bind (HReader_int_same (read_int_16 (by omega))) fun _ => ?_
  peel
  exact (Same.allocH rfl).tail _

/-- `read_int_16_array_4` — `/repo/src/genieutils/common.py:181-186`. -/
theorem read_int_16_array_4 {n : Nat} (hn : 3 ≤ n) :
    Same PVal.h (callN n .handler n!"ByteHandler" n!"read_int_16_array_4" ⟨[], []⟩) HReader.readInt16Array4 := by
  call_fun
  refine Same.bind (HReader_int_same (read_int_16 (by omega))) fun _ => ?_
  peel
  refine Same.bind (HReader_int_same (read_int_16 (by omega))) fun _ => ?_
  peel
  refine Same.bind (HReader_int_same (read_int_16 (by omega))) fun _ => ?_
  peel
  refine Same.bind (HReader_int_same (read_int_16 (by omega))) fun _ => ?_
  peel
  exact (Same.allocH rfl).tail _

/-- `read_int_16_array_6` — `/repo/src/genieutils/common.py:188-195`. -/
theorem read_int_16_array_6 {n : Nat} (hn : 3 ≤ n) :
    Same PVal.h (callN n .handler n!"ByteHandler" n!"read_int_16_array_6" ⟨[], []⟩) HReader.readInt16Array6 := by
  call_fun
  refine Same.bind (HReader_int_same (read_int_16 (by omega))) fun _ => ?_
  peel
  refine Same.bind (HReader_int_same (read_int_16 (by omega))) fun _ => ?_
  peel
  refine Same.bind (HReader_int_same (read_int_16 (by omega))) fun _ => ?_
  peel
  refine Same.bind (HReader_int_same (read_int_16 (by omega))) fun _ => ?_
  peel
  refine Same.bind (HReader_int_same (read_int_16 (by omega))) fun _ => ?_
  peel
  refine Same.bind (HReader_int_same (read_int_16 (by omega))) fun _ => ?_
  peel
  exact (Same.allocH rfl).tail _

/-- `read_int_32_array_10` — `/repo/src/genieutils/common.py:206-218`. -/
theorem read_int_32_array_10 {n : Nat} (hn : 3 ≤ n) :
    Same PVal.h (callN n .handler n!"ByteHandler" n!"read_int_32_array_10" ⟨[], []⟩) HReader.readInt32Array10 := by
  call_fun
  refine Same.bind (HReader_int_same (read_int_32 (by omega))) fun _ => ?_
  peel
  refine Same.bind (HReader_int_same (read_int_32 (by omega))) fun _ => ?_
  peel
  refine Same.bind (HReader_int_same (read_int_32 (by omega))) fun _ => ?_
  peel
  refine Same.bind (HReader_int_same (read_int_32 (by omega))) fun _ => ?_
  peel
  refine Same.bind (HReader_int_same (read_int_32 (by omega))) fun _ => ?_
  peel
  refine Same.bind (HReader_int_same (read_int_32 (by omega))) fun _ => ?_
  peel
  refine Same.bind (HReader_int_same (read_int_32 (by omega))) fun _ => ?_
  peel
  refine Same.bind (HReader_int_same (read_int_32 (by omega))) fun _ => ?_
  peel
  refine Same.bind (HReader_int_same (read_int_32 (by omega))) fun _ => ?_
  peel
  refine Same.bind (HReader_int_same (read_int_32 (by omega))) fun _ => ?_
  peel
  exact (Same.allocH rfl).tail _

/-- `read_float_array_3` — `/repo/src/genieutils/common.py:234-238`. -/
theorem read_float_array_3 {n : Nat} (hn : 3 ≤ n) :
    Same PVal.h (callN n .handler n!"ByteHandler" n!"read_float_array_3" ⟨[], []⟩) HReader.readFloatArray3 := by
  call_fun
  refine Same.bind (HReader_float_same (read_float (by omega))) fun _ => ?_
  peel
  refine Same.bind (HReader_float_same (read_float (by omega))) fun _ => ?_
  peel
  refine Same.bind (HReader_float_same (read_float (by omega))) fun _ => ?_
  peel
  exact (Same.allocH rfl).tail _

end Genie.Src
