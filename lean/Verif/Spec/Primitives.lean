import Verif.Model.Common
/-! # The table of the primitive read methods of `ByteHandler` -/

namespace Genie

/-- The `read_*` methods of `ByteHandler` that do not take a class. -/
inductive Primitive where
  | int_8 | int_16 (signed : Bool) | int_32 (signed : Bool) | float
  | debug_string | string (length : Nat)
  | int_8_array (size : Int) | int_16_array (size : Int) | int_32_array (size : Int) | float_array (size : Int)
  | int_8_array_2 | int_8_array_3 | int_8_array_5 | int_8_array_6 | int_8_array_10
  | int_16_array_2 | int_16_array_3 | int_16_array_4 | int_16_array_6 | int_32_array_10
  | float_array_2 | float_array_3

/-- What the method returns. -/
abbrev Primitive.Ret : Primitive → Type
  | .int_8 | .int_16 _ | .int_32 _ => Int
  | .float => PyFloat
  | .debug_string | .string _ => PyStr
  | .float_array _ | .float_array_2 | .float_array_3 => List PyFloat
  | _ => List Int

/-- The method. -/
def Primitive.read : (p : Primitive) → Reader p.Ret
  | .int_8 => readInt8 | .int_16 s => readInt16 s | .int_32 s => readInt32 s | .float => readFloat
  | .debug_string => readDebugString | .string n => readString n
  | .int_8_array n => readInt8Array n | .int_16_array n => readInt16Array n
  | .int_32_array n => readInt32Array n | .float_array n => readFloatArray n
  | .int_8_array_2 => readInt8Array2 | .int_8_array_3 => readInt8Array3 | .int_8_array_5 => readInt8Array5
  | .int_8_array_6 => readInt8Array6 | .int_8_array_10 => readInt8Array10
  | .int_16_array_2 => readInt16Array2 | .int_16_array_3 => readInt16Array3
  | .int_16_array_4 => readInt16Array4 | .int_16_array_6 => readInt16Array6
  | .int_32_array_10 => readInt32Array10
  | .float_array_2 => readFloatArray2 | .float_array_3 => readFloatArray3

end Genie
