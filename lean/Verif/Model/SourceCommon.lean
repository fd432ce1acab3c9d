import Verif.Py.Ast
/-!
# The source code of `/repo/src/genieutils`

Modules: `versions.py`, `datatypes.py`, `common.py`.  Written by `tools/gen_source.py` from the syntax trees that Python's parser gives; annotations and docstrings have no effect and are
left out; `DatFile.parse`, `DatFile.save` and `scripts.py` are in `Verif/Model/SourceIo.lean`.
-/

namespace Genie.Src

/-- `Version.__lt__` — `/repo/src/genieutils/versions.py:17-18`. -/
def Version.src___lt__ : Fun where
  name := n!"__lt__"
  kind := .method
  params := [(n!"self", .argNil), (n!"other", .argNil)]
  body :=
    (.ret (.compare (.attr (.name n!"self") n!"value") (.cmp .lt (.attr (.name n!"other") n!"value") .cmpNil)))

/-- `Version.__le__` — `/repo/src/genieutils/versions.py:20-21`. -/
def Version.src___le__ : Fun where
  name := n!"__le__"
  kind := .method
  params := [(n!"self", .argNil), (n!"other", .argNil)]
  body :=
    (.ret (.compare (.attr (.name n!"self") n!"value") (.cmp .le (.attr (.name n!"other") n!"value") .cmpNil)))

/-- `Version.__gt__` — `/repo/src/genieutils/versions.py:23-24`. -/
def Version.src___gt__ : Fun where
  name := n!"__gt__"
  kind := .method
  params := [(n!"self", .argNil), (n!"other", .argNil)]
  body :=
    (.ret (.compare (.attr (.name n!"self") n!"value") (.cmp .gt (.attr (.name n!"other") n!"value") .cmpNil)))

/-- `Version.__ge__` — `/repo/src/genieutils/versions.py:26-27`. -/
def Version.src___ge__ : Fun where
  name := n!"__ge__"
  kind := .method
  params := [(n!"self", .argNil), (n!"other", .argNil)]
  body :=
    (.ret (.compare (.attr (.name n!"self") n!"value") (.cmp .ge (.attr (.name n!"other") n!"value") .cmpNil)))

/-- `class Version` — `/repo/src/genieutils/versions.py:4-27`. -/
def Version.src : Cls where
  name := n!"Version"
  module := n!"versions"
  base := n!"Enum"
  dataclass := false
  fields := []
  vars := [(n!"UNDEFINED", (.str "UNDEFINED")), (n!"VER_71", (.str "VER 7.1")), (n!"VER_72", (.str "VER 7.2")), (n!"VER_73", (.str "VER 7.3")), (n!"VER_74", (.str "VER 7.4")), (n!"VER_75", (.str "VER 7.5")), (n!"VER_76", (.str "VER 7.6")), (n!"VER_77", (.str "VER 7.7")), (n!"VER_78", (.str "VER 7.8")), (n!"VER_84", (.str "VER 8.4")), (n!"VER_88", (.str "VER 8.8"))]
  funs := [Version.src___lt__, Version.src___le__, Version.src___gt__, Version.src___ge__]

/-- The names of the module `/repo/src/genieutils/versions.py`. -/
def module_versions : Module where
  name := n!"versions"
  globals := [
    (n!"Enum", .lib),
    (n!"Version", .cls)]

/-- `String.from_bytes` — `/repo/src/genieutils/datatypes.py:6-7`. -/
def String.src_from_bytes : Fun where
  name := n!"from_bytes"
  kind := .staticMethod
  params := [(n!"content", .argNil)]
  body :=
    (.ret (.call (.attr (.call (.attr (.call (.name n!"bytes") (.arg (.name n!"content") .argNil)) n!"rstrip") (.arg (.bytes [0]) .argNil)) n!"decode") .argNil))

/-- `String.to_bytes` — `/repo/src/genieutils/datatypes.py:10-15`. -/
def String.src_to_bytes : Fun where
  name := n!"to_bytes"
  kind := .staticMethod
  params := [(n!"content", .argNil), (n!"length", .none)]
  body :=
    (.assign n!"encoded" (.call (.attr (.name n!"content") n!"encode") .argNil)
    (.ite (.not (.name n!"length"))
        (.assign n!"length" (.bin .add (.call (.name n!"len") (.arg (.name n!"encoded") .argNil)) (.int 1))
        .done)
        .done
    (.assign n!"zfill" (.bin .sub (.name n!"length") (.call (.name n!"len") (.arg (.name n!"encoded") .argNil)))
    (.ret (.bin .add (.name n!"encoded") (.bin .mul (.bytes [0]) (.name n!"zfill")))))))

/-- `class String` — `/repo/src/genieutils/datatypes.py:4-15`. -/
def String.src : Cls where
  name := n!"String"
  module := n!"datatypes"
  base := n!"object"
  dataclass := false
  fields := []
  vars := []
  funs := [String.src_from_bytes, String.src_to_bytes]

/-- `Int.from_bytes` — `/repo/src/genieutils/datatypes.py:20-21`. -/
def Int.src_from_bytes : Fun where
  name := n!"from_bytes"
  kind := .staticMethod
  params := [(n!"content", .argNil), (n!"signed", (.bool true))]
  body :=
    (.ret (.call (.attr (.name n!"int") n!"from_bytes") (.arg (.name n!"content") (.kw n!"byteorder" (.str "little") (.kw n!"signed" (.name n!"signed") .argNil)))))

/-- `Int.to_bytes` — `/repo/src/genieutils/datatypes.py:24-25`. -/
def Int.src_to_bytes : Fun where
  name := n!"to_bytes"
  kind := .staticMethod
  params := [(n!"content", .argNil), (n!"length", (.int 2)), (n!"signed", (.bool true))]
  body :=
    (.ret (.call (.attr (.name n!"content") n!"to_bytes") (.arg (.name n!"length") (.arg (.str "little") (.kw n!"signed" (.name n!"signed") .argNil)))))

/-- `class Int` — `/repo/src/genieutils/datatypes.py:18-25`. -/
def Int.src : Cls where
  name := n!"Int"
  module := n!"datatypes"
  base := n!"object"
  dataclass := false
  fields := []
  vars := []
  funs := [Int.src_from_bytes, Int.src_to_bytes]

/-- `Float.from_bytes` — `/repo/src/genieutils/datatypes.py:30-31`. -/
def Float.src_from_bytes : Fun where
  name := n!"from_bytes"
  kind := .staticMethod
  params := [(n!"content", .argNil)]
  body :=
    (.ret (.index (.call (.attr (.name n!"struct") n!"unpack") (.arg (.str "f") (.arg (.name n!"content") .argNil))) (.int 0)))

/-- `Float.to_bytes` — `/repo/src/genieutils/datatypes.py:34-35`. -/
def Float.src_to_bytes : Fun where
  name := n!"to_bytes"
  kind := .staticMethod
  params := [(n!"content", .argNil)]
  body :=
    (.ret (.call (.attr (.name n!"struct") n!"pack") (.arg (.str "f") (.arg (.name n!"content") .argNil))))

/-- `class Float` — `/repo/src/genieutils/datatypes.py:28-35`. -/
def Float.src : Cls where
  name := n!"Float"
  module := n!"datatypes"
  base := n!"object"
  dataclass := false
  fields := []
  vars := []
  funs := [Float.src_from_bytes, Float.src_to_bytes]

/-- The names of the module `/repo/src/genieutils/datatypes.py`. -/
def module_datatypes : Module where
  name := n!"datatypes"
  globals := [
    (n!"struct", .lib),
    (n!"String", .cls),
    (n!"Int", .cls),
    (n!"Float", .cls)]

/-- `class UnitType` — `/repo/src/genieutils/common.py:13-23`. -/
def UnitType.src : Cls where
  name := n!"UnitType"
  module := n!"common"
  base := n!"IntEnum"
  dataclass := false
  fields := []
  vars := [(n!"EyeCandy", (.int 10)), (n!"Trees", (.int 15)), (n!"Flag", (.int 20)), (n!"DeadFish", (.int 30)), (n!"Bird", (.int 40)), (n!"Combatant", (.int 50)), (n!"Projectile", (.int 60)), (n!"Creatable", (.int 70)), (n!"Building", (.int 80)), (n!"AoeTrees", (.int 90))]
  funs := []

/-- `GenieClass.from_bytes` — `/repo/src/genieutils/common.py:28-29`. -/
def GenieClass.src_from_bytes : Fun where
  name := n!"from_bytes"
  kind := .classMethod
  params := [(n!"cls", .argNil), (n!"data", .argNil)]
  body :=
    (.raise (.name n!"NotImplementedError"))

/-- `GenieClass.from_bytes_with_count` — `/repo/src/genieutils/common.py:32-33`. -/
def GenieClass.src_from_bytes_with_count : Fun where
  name := n!"from_bytes_with_count"
  kind := .classMethod
  params := [(n!"cls", .argNil), (n!"data", .argNil), (n!"terrains_used_1", .argNil)]
  body :=
    (.raise (.name n!"NotImplementedError"))

/-- `GenieClass.to_bytes` — `/repo/src/genieutils/common.py:35-36`. -/
def GenieClass.src_to_bytes : Fun where
  name := n!"to_bytes"
  kind := .method
  params := [(n!"self", .argNil), (n!"version", .argNil)]
  body :=
    (.raise (.name n!"NotImplementedError"))

/-- `GenieClass.write_debug_string` — `/repo/src/genieutils/common.py:38-42`. -/
def GenieClass.src_write_debug_string : Fun where
  name := n!"write_debug_string"
  kind := .method
  params := [(n!"self", .argNil), (n!"value", .argNil)]
  body :=
    (.assign n!"encoded" (.call (.attr (.name n!"value") n!"encode") (.arg (.str "utf-8") .argNil))
    (.ret (.bin .add (.bin .add (.call (.attr (.name n!"self") n!"write_int_16") (.arg (.int 2656) (.kw n!"signed" (.bool false) .argNil))) (.call (.attr (.name n!"self") n!"write_int_16") (.arg (.call (.name n!"len") (.arg (.name n!"encoded") .argNil)) (.kw n!"signed" (.bool false) .argNil)))) (.name n!"encoded"))))

/-- `GenieClass.write_string` — `/repo/src/genieutils/common.py:44-45`. -/
def GenieClass.src_write_string : Fun where
  name := n!"write_string"
  kind := .method
  params := [(n!"self", .argNil), (n!"length", .argNil), (n!"value", .argNil)]
  body :=
    (.ret (.call (.attr (.name n!"String") n!"to_bytes") (.arg (.name n!"value") (.arg (.name n!"length") .argNil))))

/-- `GenieClass.write_int_8` — `/repo/src/genieutils/common.py:47-48`. -/
def GenieClass.src_write_int_8 : Fun where
  name := n!"write_int_8"
  kind := .method
  params := [(n!"self", .argNil), (n!"value", .argNil)]
  body :=
    (.ret (.call (.attr (.name n!"Int") n!"to_bytes") (.arg (.name n!"value") (.kw n!"length" (.int 1) (.kw n!"signed" (.bool false) .argNil)))))

/-- `GenieClass.write_int_8_array` — `/repo/src/genieutils/common.py:50-51`. -/
def GenieClass.src_write_int_8_array : Fun where
  name := n!"write_int_8_array"
  kind := .method
  params := [(n!"self", .argNil), (n!"value", .argNil)]
  body :=
    (.ret (.call (.attr (.bytes []) n!"join") (.arg (.comp (.call (.attr (.name n!"self") n!"write_int_8") (.arg (.name n!"v") .argNil)) n!"v" (.name n!"value")) .argNil)))

/-- `GenieClass.write_int_16` — `/repo/src/genieutils/common.py:53-56`. -/
def GenieClass.src_write_int_16 : Fun where
  name := n!"write_int_16"
  kind := .method
  params := [(n!"self", .argNil), (n!"value", .argNil), (n!"signed", (.bool true)), (n!"if_", (.bool true))]
  body :=
    (.ite (.not (.name n!"if_"))
        (.ret (.bytes []))
        .done
    (.ret (.call (.attr (.name n!"Int") n!"to_bytes") (.arg (.name n!"value") (.kw n!"length" (.int 2) (.kw n!"signed" (.name n!"signed") .argNil))))))

/-- `GenieClass.write_int_16_array` — `/repo/src/genieutils/common.py:58-59`. -/
def GenieClass.src_write_int_16_array : Fun where
  name := n!"write_int_16_array"
  kind := .method
  params := [(n!"self", .argNil), (n!"value", .argNil)]
  body :=
    (.ret (.call (.attr (.bytes []) n!"join") (.arg (.comp (.call (.attr (.name n!"self") n!"write_int_16") (.arg (.name n!"v") .argNil)) n!"v" (.name n!"value")) .argNil)))

/-- `GenieClass.write_int_32` — `/repo/src/genieutils/common.py:61-62`. -/
def GenieClass.src_write_int_32 : Fun where
  name := n!"write_int_32"
  kind := .method
  params := [(n!"self", .argNil), (n!"value", .argNil), (n!"signed", (.bool true))]
  body :=
    (.ret (.call (.attr (.name n!"Int") n!"to_bytes") (.arg (.name n!"value") (.kw n!"length" (.int 4) (.kw n!"signed" (.name n!"signed") .argNil)))))

/-- `GenieClass.write_int_32_array` — `/repo/src/genieutils/common.py:64-65`. -/
def GenieClass.src_write_int_32_array : Fun where
  name := n!"write_int_32_array"
  kind := .method
  params := [(n!"self", .argNil), (n!"value", .argNil)]
  body :=
    (.ret (.call (.attr (.bytes []) n!"join") (.arg (.comp (.call (.attr (.name n!"self") n!"write_int_32") (.arg (.name n!"v") .argNil)) n!"v" (.name n!"value")) .argNil)))

/-- `GenieClass.write_float` — `/repo/src/genieutils/common.py:67-68`. -/
def GenieClass.src_write_float : Fun where
  name := n!"write_float"
  kind := .method
  params := [(n!"self", .argNil), (n!"value", .argNil)]
  body :=
    (.ret (.call (.attr (.name n!"Float") n!"to_bytes") (.arg (.name n!"value") .argNil)))

/-- `GenieClass.write_float_array` — `/repo/src/genieutils/common.py:70-71`. -/
def GenieClass.src_write_float_array : Fun where
  name := n!"write_float_array"
  kind := .method
  params := [(n!"self", .argNil), (n!"value", .argNil)]
  body :=
    (.ret (.call (.attr (.bytes []) n!"join") (.arg (.comp (.call (.attr (.name n!"self") n!"write_float") (.arg (.name n!"v") .argNil)) n!"v" (.name n!"value")) .argNil)))

/-- `GenieClass.write_class` — `/repo/src/genieutils/common.py:73-77`. -/
def GenieClass.src_write_class : Fun where
  name := n!"write_class"
  kind := .method
  params := [(n!"self", .argNil), (n!"value", .argNil), (n!"version", .argNil)]
  body :=
    (.assign n!"retval" (.call (.attr (.name n!"value") n!"to_bytes") (.arg (.name n!"version") .argNil))
    (.ite (.name n!"retval")
        (.ret (.name n!"retval"))
        .done
    (.ret (.bytes []))))

/-- `GenieClass.write_class_array` — `/repo/src/genieutils/common.py:79-83`. -/
def GenieClass.src_write_class_array : Fun where
  name := n!"write_class_array"
  kind := .method
  params := [(n!"self", .argNil), (n!"value", .argNil), (n!"version", .argNil)]
  body :=
    (.assign n!"retval" (.call (.attr (.bytes []) n!"join") (.arg (.compIf (.call (.attr (.name n!"self") n!"write_class") (.arg (.name n!"v") (.arg (.name n!"version") .argNil))) n!"v" (.name n!"value") (.compare (.name n!"v") (.cmp .isNot .none .cmpNil))) .argNil))
    (.ite (.name n!"retval")
        (.ret (.name n!"retval"))
        .done
    (.ret (.bytes []))))

/-- `class GenieClass` — `/repo/src/genieutils/common.py:26-83`. -/
def GenieClass.src : Cls where
  name := n!"GenieClass"
  module := n!"common"
  base := n!"ABC"
  dataclass := false
  fields := []
  vars := []
  funs := [GenieClass.src_from_bytes, GenieClass.src_from_bytes_with_count, GenieClass.src_to_bytes, GenieClass.src_write_debug_string, GenieClass.src_write_string, GenieClass.src_write_int_8, GenieClass.src_write_int_8_array, GenieClass.src_write_int_16, GenieClass.src_write_int_16_array, GenieClass.src_write_int_32, GenieClass.src_write_int_32_array, GenieClass.src_write_float, GenieClass.src_write_float_array, GenieClass.src_write_class, GenieClass.src_write_class_array]

/-- `ByteHandler.__init__` — `/repo/src/genieutils/common.py:90-93`. -/
def ByteHandler.src___init__ : Fun where
  name := n!"__init__"
  kind := .method
  params := [(n!"self", .argNil), (n!"content", .argNil)]
  body :=
    (.setAttr (.name n!"self") n!"content" (.name n!"content")
    (.setAttr (.name n!"self") n!"offset" (.int 0)
    (.setAttr (.name n!"self") n!"version" (.attr (.name n!"Version") n!"UNDEFINED")
    .done)))

/-- `ByteHandler.consume_range` — `/repo/src/genieutils/common.py:95-99`. -/
def ByteHandler.src_consume_range : Fun where
  name := n!"consume_range"
  kind := .method
  params := [(n!"self", .argNil), (n!"length", .argNil)]
  body :=
    (.assign n!"start" (.attr (.name n!"self") n!"offset")
    (.assign n!"end" (.bin .add (.name n!"start") (.name n!"length"))
    (.setAttr (.name n!"self") n!"offset" (.name n!"end")
    (.ret (.slice (.attr (.name n!"self") n!"content") (.name n!"start") (.name n!"end"))))))

/-- `ByteHandler.read_debug_string` — `/repo/src/genieutils/common.py:101-105`. -/
def ByteHandler.src_read_debug_string : Fun where
  name := n!"read_debug_string"
  kind := .method
  params := [(n!"self", .argNil)]
  body :=
    (.assign n!"tmp_size" (.call (.attr (.name n!"self") n!"read_int_16") (.kw n!"signed" (.bool false) .argNil))
    (.assert (.compare (.name n!"tmp_size") (.cmp .eq (.int 2656) .cmpNil))
    (.assign n!"size" (.call (.attr (.name n!"self") n!"read_int_16") (.kw n!"signed" (.bool false) .argNil))
    (.ret (.call (.attr (.name n!"String") n!"from_bytes") (.arg (.call (.attr (.name n!"self") n!"consume_range") (.arg (.name n!"size") .argNil)) .argNil))))))

/-- `ByteHandler.read_string` — `/repo/src/genieutils/common.py:107-108`. -/
def ByteHandler.src_read_string : Fun where
  name := n!"read_string"
  kind := .method
  params := [(n!"self", .argNil), (n!"length", .argNil)]
  body :=
    (.ret (.call (.attr (.name n!"String") n!"from_bytes") (.arg (.call (.attr (.name n!"self") n!"consume_range") (.arg (.name n!"length") .argNil)) .argNil)))

/-- `ByteHandler.read_int_8` — `/repo/src/genieutils/common.py:110-111`. -/
def ByteHandler.src_read_int_8 : Fun where
  name := n!"read_int_8"
  kind := .method
  params := [(n!"self", .argNil)]
  body :=
    (.ret (.call (.attr (.name n!"Int") n!"from_bytes") (.arg (.call (.attr (.name n!"self") n!"consume_range") (.arg (.int 1) .argNil)) (.kw n!"signed" (.bool false) .argNil))))

/-- `ByteHandler.read_int_8_array` — `/repo/src/genieutils/common.py:113-117`. -/
def ByteHandler.src_read_int_8_array : Fun where
  name := n!"read_int_8_array"
  kind := .method
  params := [(n!"self", .argNil), (n!"size", .argNil)]
  body :=
    (.assign n!"elements" (.list .argNil)
    (.forIn n!"i" (.call (.name n!"range") (.arg (.name n!"size") .argNil))
        (.expr (.call (.attr (.name n!"elements") n!"append") (.arg (.call (.attr (.name n!"self") n!"read_int_8") .argNil) .argNil))
        .done)
    (.ret (.name n!"elements"))))

/-- `ByteHandler.read_int_8_array_2` — `/repo/src/genieutils/common.py:119-122`. -/
def ByteHandler.src_read_int_8_array_2 : Fun where
  name := n!"read_int_8_array_2"
  kind := .method
  params := [(n!"self", .argNil)]
  body :=
    (.assign n!"element_0" (.call (.attr (.name n!"self") n!"read_int_8") .argNil)
    (.assign n!"element_1" (.call (.attr (.name n!"self") n!"read_int_8") .argNil)
    (.ret (.tuple (.arg (.name n!"element_0") (.arg (.name n!"element_1") .argNil))))))

/-- `ByteHandler.read_int_8_array_3` — `/repo/src/genieutils/common.py:124-128`. -/
def ByteHandler.src_read_int_8_array_3 : Fun where
  name := n!"read_int_8_array_3"
  kind := .method
  params := [(n!"self", .argNil)]
  body :=
    (.assign n!"element_0" (.call (.attr (.name n!"self") n!"read_int_8") .argNil)
    (.assign n!"element_1" (.call (.attr (.name n!"self") n!"read_int_8") .argNil)
    (.assign n!"element_2" (.call (.attr (.name n!"self") n!"read_int_8") .argNil)
    (.ret (.tuple (.arg (.name n!"element_0") (.arg (.name n!"element_1") (.arg (.name n!"element_2") .argNil))))))))

/-- `ByteHandler.read_int_8_array_5` — `/repo/src/genieutils/common.py:130-136`. -/
def ByteHandler.src_read_int_8_array_5 : Fun where
  name := n!"read_int_8_array_5"
  kind := .method
  params := [(n!"self", .argNil)]
  body :=
    (.assign n!"element_0" (.call (.attr (.name n!"self") n!"read_int_8") .argNil)
    (.assign n!"element_1" (.call (.attr (.name n!"self") n!"read_int_8") .argNil)
    (.assign n!"element_2" (.call (.attr (.name n!"self") n!"read_int_8") .argNil)
    (.assign n!"element_3" (.call (.attr (.name n!"self") n!"read_int_8") .argNil)
    (.assign n!"element_4" (.call (.attr (.name n!"self") n!"read_int_8") .argNil)
    (.ret (.tuple (.arg (.name n!"element_0") (.arg (.name n!"element_1") (.arg (.name n!"element_2") (.arg (.name n!"element_3") (.arg (.name n!"element_4") .argNil))))))))))))

/-- `ByteHandler.read_int_8_array_6` — `/repo/src/genieutils/common.py:138-145`. -/
def ByteHandler.src_read_int_8_array_6 : Fun where
  name := n!"read_int_8_array_6"
  kind := .method
  params := [(n!"self", .argNil)]
  body :=
    (.assign n!"element_0" (.call (.attr (.name n!"self") n!"read_int_8") .argNil)
    (.assign n!"element_1" (.call (.attr (.name n!"self") n!"read_int_8") .argNil)
    (.assign n!"element_2" (.call (.attr (.name n!"self") n!"read_int_8") .argNil)
    (.assign n!"element_3" (.call (.attr (.name n!"self") n!"read_int_8") .argNil)
    (.assign n!"element_4" (.call (.attr (.name n!"self") n!"read_int_8") .argNil)
    (.assign n!"element_5" (.call (.attr (.name n!"self") n!"read_int_8") .argNil)
    (.ret (.tuple (.arg (.name n!"element_0") (.arg (.name n!"element_1") (.arg (.name n!"element_2") (.arg (.name n!"element_3") (.arg (.name n!"element_4") (.arg (.name n!"element_5") .argNil))))))))))))))

/-- `ByteHandler.read_int_8_array_10` — `/repo/src/genieutils/common.py:147-159`. -/
def ByteHandler.src_read_int_8_array_10 : Fun where
  name := n!"read_int_8_array_10"
  kind := .method
  params := [(n!"self", .argNil)]
  body :=
    (.assign n!"element_0" (.call (.attr (.name n!"self") n!"read_int_8") .argNil)
    (.assign n!"element_1" (.call (.attr (.name n!"self") n!"read_int_8") .argNil)
    (.assign n!"element_2" (.call (.attr (.name n!"self") n!"read_int_8") .argNil)
    (.assign n!"element_3" (.call (.attr (.name n!"self") n!"read_int_8") .argNil)
    (.assign n!"element_4" (.call (.attr (.name n!"self") n!"read_int_8") .argNil)
    (.assign n!"element_5" (.call (.attr (.name n!"self") n!"read_int_8") .argNil)
    (.assign n!"element_6" (.call (.attr (.name n!"self") n!"read_int_8") .argNil)
    (.assign n!"element_7" (.call (.attr (.name n!"self") n!"read_int_8") .argNil)
    (.assign n!"element_8" (.call (.attr (.name n!"self") n!"read_int_8") .argNil)
    (.assign n!"element_9" (.call (.attr (.name n!"self") n!"read_int_8") .argNil)
    (.ret (.tuple (.arg (.name n!"element_0") (.arg (.name n!"element_1") (.arg (.name n!"element_2") (.arg (.name n!"element_3") (.arg (.name n!"element_4") (.arg (.name n!"element_5") (.arg (.name n!"element_6") (.arg (.name n!"element_7") (.arg (.name n!"element_8") (.arg (.name n!"element_9") .argNil))))))))))))))))))))))

/-- `ByteHandler.read_int_16` — `/repo/src/genieutils/common.py:161-162`. -/
def ByteHandler.src_read_int_16 : Fun where
  name := n!"read_int_16"
  kind := .method
  params := [(n!"self", .argNil), (n!"signed", (.bool true))]
  body :=
    (.ret (.call (.attr (.name n!"Int") n!"from_bytes") (.arg (.call (.attr (.name n!"self") n!"consume_range") (.arg (.int 2) .argNil)) (.kw n!"signed" (.name n!"signed") .argNil))))

/-- `ByteHandler.read_int_16_array` — `/repo/src/genieutils/common.py:164-168`. -/
def ByteHandler.src_read_int_16_array : Fun where
  name := n!"read_int_16_array"
  kind := .method
  params := [(n!"self", .argNil), (n!"size", .argNil)]
  body :=
    (.assign n!"elements" (.list .argNil)
    (.forIn n!"i" (.call (.name n!"range") (.arg (.name n!"size") .argNil))
        (.expr (.call (.attr (.name n!"elements") n!"append") (.arg (.call (.attr (.name n!"self") n!"read_int_16") .argNil) .argNil))
        .done)
    (.ret (.name n!"elements"))))

/-- `ByteHandler.read_int_16_array_2` — `/repo/src/genieutils/common.py:170-173`. -/
def ByteHandler.src_read_int_16_array_2 : Fun where
  name := n!"read_int_16_array_2"
  kind := .method
  params := [(n!"self", .argNil)]
  body :=
    (.assign n!"element_0" (.call (.attr (.name n!"self") n!"read_int_16") .argNil)
    (.assign n!"element_1" (.call (.attr (.name n!"self") n!"read_int_16") .argNil)
    (.ret (.tuple (.arg (.name n!"element_0") (.arg (.name n!"element_1") .argNil))))))

/-- `ByteHandler.read_int_16_array_3` — `/repo/src/genieutils/common.py:175-179`. -/
def ByteHandler.src_read_int_16_array_3 : Fun where
  name := n!"read_int_16_array_3"
  kind := .method
  params := [(n!"self", .argNil)]
  body :=
    (.assign n!"element_0" (.call (.attr (.name n!"self") n!"read_int_16") .argNil)
    (.assign n!"element_1" (.call (.attr (.name n!"self") n!"read_int_16") .argNil)
    (.assign n!"element_2" (.call (.attr (.name n!"self") n!"read_int_16") .argNil)
    (.ret (.tuple (.arg (.name n!"element_0") (.arg (.name n!"element_1") (.arg (.name n!"element_2") .argNil))))))))

/-- `ByteHandler.read_int_16_array_4` — `/repo/src/genieutils/common.py:181-186`. -/
def ByteHandler.src_read_int_16_array_4 : Fun where
  name := n!"read_int_16_array_4"
  kind := .method
  params := [(n!"self", .argNil)]
  body :=
    (.assign n!"element_0" (.call (.attr (.name n!"self") n!"read_int_16") .argNil)
    (.assign n!"element_1" (.call (.attr (.name n!"self") n!"read_int_16") .argNil)
    (.assign n!"element_2" (.call (.attr (.name n!"self") n!"read_int_16") .argNil)
    (.assign n!"element_3" (.call (.attr (.name n!"self") n!"read_int_16") .argNil)
    (.ret (.tuple (.arg (.name n!"element_0") (.arg (.name n!"element_1") (.arg (.name n!"element_2") (.arg (.name n!"element_3") .argNil))))))))))

/-- `ByteHandler.read_int_16_array_6` — `/repo/src/genieutils/common.py:188-195`. -/
def ByteHandler.src_read_int_16_array_6 : Fun where
  name := n!"read_int_16_array_6"
  kind := .method
  params := [(n!"self", .argNil)]
  body :=
    (.assign n!"element_0" (.call (.attr (.name n!"self") n!"read_int_16") .argNil)
    (.assign n!"element_1" (.call (.attr (.name n!"self") n!"read_int_16") .argNil)
    (.assign n!"element_2" (.call (.attr (.name n!"self") n!"read_int_16") .argNil)
    (.assign n!"element_3" (.call (.attr (.name n!"self") n!"read_int_16") .argNil)
    (.assign n!"element_4" (.call (.attr (.name n!"self") n!"read_int_16") .argNil)
    (.assign n!"element_5" (.call (.attr (.name n!"self") n!"read_int_16") .argNil)
    (.ret (.tuple (.arg (.name n!"element_0") (.arg (.name n!"element_1") (.arg (.name n!"element_2") (.arg (.name n!"element_3") (.arg (.name n!"element_4") (.arg (.name n!"element_5") .argNil))))))))))))))

/-- `ByteHandler.read_int_32` — `/repo/src/genieutils/common.py:197-198`. -/
def ByteHandler.src_read_int_32 : Fun where
  name := n!"read_int_32"
  kind := .method
  params := [(n!"self", .argNil), (n!"signed", (.bool true))]
  body :=
    (.ret (.call (.attr (.name n!"Int") n!"from_bytes") (.arg (.call (.attr (.name n!"self") n!"consume_range") (.arg (.int 4) .argNil)) (.kw n!"signed" (.name n!"signed") .argNil))))

/-- `ByteHandler.read_int_32_array` — `/repo/src/genieutils/common.py:200-204`. -/
def ByteHandler.src_read_int_32_array : Fun where
  name := n!"read_int_32_array"
  kind := .method
  params := [(n!"self", .argNil), (n!"size", .argNil)]
  body :=
    (.assign n!"elements" (.list .argNil)
    (.forIn n!"i" (.call (.name n!"range") (.arg (.name n!"size") .argNil))
        (.expr (.call (.attr (.name n!"elements") n!"append") (.arg (.call (.attr (.name n!"self") n!"read_int_32") .argNil) .argNil))
        .done)
    (.ret (.name n!"elements"))))

/-- `ByteHandler.read_int_32_array_10` — `/repo/src/genieutils/common.py:206-218`. -/
def ByteHandler.src_read_int_32_array_10 : Fun where
  name := n!"read_int_32_array_10"
  kind := .method
  params := [(n!"self", .argNil)]
  body :=
    (.assign n!"element_0" (.call (.attr (.name n!"self") n!"read_int_32") .argNil)
    (.assign n!"element_1" (.call (.attr (.name n!"self") n!"read_int_32") .argNil)
    (.assign n!"element_2" (.call (.attr (.name n!"self") n!"read_int_32") .argNil)
    (.assign n!"element_3" (.call (.attr (.name n!"self") n!"read_int_32") .argNil)
    (.assign n!"element_4" (.call (.attr (.name n!"self") n!"read_int_32") .argNil)
    (.assign n!"element_5" (.call (.attr (.name n!"self") n!"read_int_32") .argNil)
    (.assign n!"element_6" (.call (.attr (.name n!"self") n!"read_int_32") .argNil)
    (.assign n!"element_7" (.call (.attr (.name n!"self") n!"read_int_32") .argNil)
    (.assign n!"element_8" (.call (.attr (.name n!"self") n!"read_int_32") .argNil)
    (.assign n!"element_9" (.call (.attr (.name n!"self") n!"read_int_32") .argNil)
    (.ret (.tuple (.arg (.name n!"element_0") (.arg (.name n!"element_1") (.arg (.name n!"element_2") (.arg (.name n!"element_3") (.arg (.name n!"element_4") (.arg (.name n!"element_5") (.arg (.name n!"element_6") (.arg (.name n!"element_7") (.arg (.name n!"element_8") (.arg (.name n!"element_9") .argNil))))))))))))))))))))))

/-- `ByteHandler.read_float` — `/repo/src/genieutils/common.py:220-221`. -/
def ByteHandler.src_read_float : Fun where
  name := n!"read_float"
  kind := .method
  params := [(n!"self", .argNil)]
  body :=
    (.ret (.call (.attr (.name n!"Float") n!"from_bytes") (.arg (.call (.attr (.name n!"self") n!"consume_range") (.arg (.int 4) .argNil)) .argNil)))

/-- `ByteHandler.read_float_array` — `/repo/src/genieutils/common.py:223-227`. -/
def ByteHandler.src_read_float_array : Fun where
  name := n!"read_float_array"
  kind := .method
  params := [(n!"self", .argNil), (n!"size", .argNil)]
  body :=
    (.assign n!"elements" (.list .argNil)
    (.forIn n!"i" (.call (.name n!"range") (.arg (.name n!"size") .argNil))
        (.expr (.call (.attr (.name n!"elements") n!"append") (.arg (.call (.attr (.name n!"self") n!"read_float") .argNil) .argNil))
        .done)
    (.ret (.name n!"elements"))))

/-- `ByteHandler.read_float_array_2` — `/repo/src/genieutils/common.py:229-232`. -/
def ByteHandler.src_read_float_array_2 : Fun where
  name := n!"read_float_array_2"
  kind := .method
  params := [(n!"self", .argNil)]
  body :=
    (.assign n!"element_0" (.call (.attr (.name n!"self") n!"read_float") .argNil)
    (.assign n!"element_1" (.call (.attr (.name n!"self") n!"read_float") .argNil)
    (.ret (.tuple (.arg (.name n!"element_0") (.arg (.name n!"element_1") .argNil))))))

/-- `ByteHandler.read_float_array_3` — `/repo/src/genieutils/common.py:234-238`. -/
def ByteHandler.src_read_float_array_3 : Fun where
  name := n!"read_float_array_3"
  kind := .method
  params := [(n!"self", .argNil)]
  body :=
    (.assign n!"element_0" (.call (.attr (.name n!"self") n!"read_float") .argNil)
    (.assign n!"element_1" (.call (.attr (.name n!"self") n!"read_float") .argNil)
    (.assign n!"element_2" (.call (.attr (.name n!"self") n!"read_float") .argNil)
    (.ret (.tuple (.arg (.name n!"element_0") (.arg (.name n!"element_1") (.arg (.name n!"element_2") .argNil))))))))

/-- `ByteHandler.read_class` — `/repo/src/genieutils/common.py:240-242`. -/
def ByteHandler.src_read_class : Fun where
  name := n!"read_class"
  kind := .method
  params := [(n!"self", .argNil), (n!"class_", .argNil)]
  body :=
    (.assign n!"element" (.call (.attr (.name n!"class_") n!"from_bytes") (.arg (.name n!"self") .argNil))
    (.ret (.name n!"element")))

/-- `ByteHandler.read_class_array` — `/repo/src/genieutils/common.py:244-249`. -/
def ByteHandler.src_read_class_array : Fun where
  name := n!"read_class_array"
  kind := .method
  params := [(n!"self", .argNil), (n!"class_", .argNil), (n!"size", .argNil)]
  body :=
    (.assign n!"elements" (.list .argNil)
    (.forIn n!"i" (.call (.name n!"range") (.arg (.name n!"size") .argNil))
        (.assign n!"element" (.call (.attr (.name n!"class_") n!"from_bytes") (.arg (.name n!"self") .argNil))
        (.expr (.call (.attr (.name n!"elements") n!"append") (.arg (.name n!"element") .argNil))
        .done))
    (.ret (.name n!"elements"))))

/-- `ByteHandler.read_class_array_3` — `/repo/src/genieutils/common.py:251-255`. -/
def ByteHandler.src_read_class_array_3 : Fun where
  name := n!"read_class_array_3"
  kind := .method
  params := [(n!"self", .argNil), (n!"class_", .argNil)]
  body :=
    (.assign n!"element_0" (.call (.attr (.name n!"class_") n!"from_bytes") (.arg (.name n!"self") .argNil))
    (.assign n!"element_1" (.call (.attr (.name n!"class_") n!"from_bytes") (.arg (.name n!"self") .argNil))
    (.assign n!"element_2" (.call (.attr (.name n!"class_") n!"from_bytes") (.arg (.name n!"self") .argNil))
    (.ret (.tuple (.arg (.name n!"element_0") (.arg (.name n!"element_1") (.arg (.name n!"element_2") .argNil))))))))

/-- `ByteHandler.read_class_array_4` — `/repo/src/genieutils/common.py:257-262`. -/
def ByteHandler.src_read_class_array_4 : Fun where
  name := n!"read_class_array_4"
  kind := .method
  params := [(n!"self", .argNil), (n!"class_", .argNil)]
  body :=
    (.assign n!"element_0" (.call (.attr (.name n!"class_") n!"from_bytes") (.arg (.name n!"self") .argNil))
    (.assign n!"element_1" (.call (.attr (.name n!"class_") n!"from_bytes") (.arg (.name n!"self") .argNil))
    (.assign n!"element_2" (.call (.attr (.name n!"class_") n!"from_bytes") (.arg (.name n!"self") .argNil))
    (.assign n!"element_3" (.call (.attr (.name n!"class_") n!"from_bytes") (.arg (.name n!"self") .argNil))
    (.ret (.tuple (.arg (.name n!"element_0") (.arg (.name n!"element_1") (.arg (.name n!"element_2") (.arg (.name n!"element_3") .argNil))))))))))

/-- `ByteHandler.read_class_array_with_pointers` — `/repo/src/genieutils/common.py:264-271`. -/
def ByteHandler.src_read_class_array_with_pointers : Fun where
  name := n!"read_class_array_with_pointers"
  kind := .method
  params := [(n!"self", .argNil), (n!"class_", .argNil), (n!"size", .argNil), (n!"pointers", .argNil)]
  body :=
    (.assign n!"elements" (.list .argNil)
    (.forIn n!"i" (.call (.name n!"range") (.arg (.name n!"size") .argNil))
        (.assign n!"element" .none
        (.ite (.index (.name n!"pointers") (.name n!"i"))
            (.assign n!"element" (.call (.attr (.name n!"class_") n!"from_bytes") (.arg (.name n!"self") .argNil))
            .done)
            .done
        (.expr (.call (.attr (.name n!"elements") n!"append") (.arg (.name n!"element") .argNil))
        .done)))
    (.ret (.name n!"elements"))))

/-- `ByteHandler.read_class_array_with_param` — `/repo/src/genieutils/common.py:273-278`. -/
def ByteHandler.src_read_class_array_with_param : Fun where
  name := n!"read_class_array_with_param"
  kind := .method
  params := [(n!"self", .argNil), (n!"class_", .argNil), (n!"size", .argNil), (n!"terrains_used_1", .argNil)]
  body :=
    (.assign n!"elements" (.list .argNil)
    (.forIn n!"i" (.call (.name n!"range") (.arg (.name n!"size") .argNil))
        (.assign n!"terrain_restriction" (.call (.attr (.name n!"class_") n!"from_bytes_with_count") (.arg (.name n!"self") (.arg (.name n!"terrains_used_1") .argNil)))
        (.expr (.call (.attr (.name n!"elements") n!"append") (.arg (.name n!"terrain_restriction") .argNil))
        .done))
    (.ret (.name n!"elements"))))

/-- `class ByteHandler` — `/repo/src/genieutils/common.py:89-278`. -/
def ByteHandler.src : Cls where
  name := n!"ByteHandler"
  module := n!"common"
  base := n!"object"
  dataclass := false
  fields := []
  vars := []
  funs := [ByteHandler.src___init__, ByteHandler.src_consume_range, ByteHandler.src_read_debug_string, ByteHandler.src_read_string, ByteHandler.src_read_int_8, ByteHandler.src_read_int_8_array, ByteHandler.src_read_int_8_array_2, ByteHandler.src_read_int_8_array_3, ByteHandler.src_read_int_8_array_5, ByteHandler.src_read_int_8_array_6, ByteHandler.src_read_int_8_array_10, ByteHandler.src_read_int_16, ByteHandler.src_read_int_16_array, ByteHandler.src_read_int_16_array_2, ByteHandler.src_read_int_16_array_3, ByteHandler.src_read_int_16_array_4, ByteHandler.src_read_int_16_array_6, ByteHandler.src_read_int_32, ByteHandler.src_read_int_32_array, ByteHandler.src_read_int_32_array_10, ByteHandler.src_read_float, ByteHandler.src_read_float_array, ByteHandler.src_read_float_array_2, ByteHandler.src_read_float_array_3, ByteHandler.src_read_class, ByteHandler.src_read_class_array, ByteHandler.src_read_class_array_3, ByteHandler.src_read_class_array_4, ByteHandler.src_read_class_array_with_pointers, ByteHandler.src_read_class_array_with_param]

/-- The names of the module `/repo/src/genieutils/common.py`. -/
def module_common : Module where
  name := n!"common"
  globals := [
    (n!"ABC", .lib),
    (n!"IntEnum", .lib),
    (n!"TypeVar", .lib),
    (n!"Sequence", .lib),
    (n!"Int", .from_ n!"datatypes"),
    (n!"Float", .from_ n!"datatypes"),
    (n!"String", .from_ n!"datatypes"),
    (n!"Version", .from_ n!"versions"),
    (n!"TILE_TYPE_COUNT", .const (.int 19)),
    (n!"TERRAIN_COUNT", .const (.int 200)),
    (n!"TERRAIN_UNITS_SIZE", .const (.int 30)),
    (n!"UnitType", .cls),
    (n!"GenieClass", .cls),
    (n!"ByteHandler", .cls)]

end Genie.Src
