import Verif.Model.Source
/-!
# The source code that works on files

`DatFile.parse` and `DatFile.save`, `scripts.py` and the two programs of `README.md`.  Written by `tools/gen_source_io.py` from the syntax trees
that Python's parser gives; annotations have no effect and are left out.  (The last two lines of `scripts.py`, `if __name__ == '__main__': main()`,
call `main` when the file itself is the program.)
-/

namespace Genie.Src

/-- `parse` — `/repo/src/genieutils/datfile.py:46-50`. -/
def DatFile.src_parse : Fun where
  name := n!"parse"
  kind := .classMethod
  params := [(n!"cls", .argNil), (n!"input_file", .argNil)]
  body :=
    (.assign n!"content" (.call (.attr (.call (.name n!"Path") (.arg (.name n!"input_file") .argNil)) n!"read_bytes") .argNil)
    (.assign n!"data" (.call (.attr (.name n!"zlib") n!"decompress") (.arg (.name n!"content") (.kw n!"wbits" (.neg (.int 15)) .argNil)))
    (.assign n!"byte_handler" (.call (.name n!"ByteHandler") (.arg (.call (.name n!"memoryview") (.arg (.name n!"data") .argNil)) .argNil))
    (.ret (.call (.attr (.name n!"cls") n!"from_bytes") (.arg (.name n!"byte_handler") .argNil))))))

/-- `save` — `/repo/src/genieutils/datfile.py:52-55`. -/
def DatFile.src_save : Fun where
  name := n!"save"
  kind := .method
  params := [(n!"self", .argNil), (n!"target_file", .argNil)]
  body :=
    (.assign n!"uncompressed" (.call (.attr (.name n!"self") n!"to_bytes") .argNil)
    (.assign n!"compressed" (.call (.attr (.name n!"zlib") n!"compress") (.arg (.name n!"uncompressed") (.kw n!"level" (.neg (.int 1)) (.kw n!"wbits" (.neg (.int 15)) .argNil))))
    (.expr (.call (.attr (.call (.name n!"Path") (.arg (.name n!"target_file") .argNil)) n!"write_bytes") (.arg (.name n!"compressed") .argNil))
    .done)))

/-- `dat_to_json` — `/repo/src/genieutils/scripts.py:10-19`. -/
def Scripts.src_dat_to_json : Fun where
  name := n!"dat_to_json"
  kind := .method
  params := []
  body :=
    (.assign n!"parser" (.call (.attr (.name n!"argparse") n!"ArgumentParser") (.kw n!"prog" (.str "dat-to-json") (.kw n!"description" (.str "Read a genie engine dat file and print the json representation to stdout") .argNil)))
    (.expr (.call (.attr (.name n!"parser") n!"add_argument") (.arg (.str "filename") (.kw n!"type" (.name n!"Path") (.kw n!"help" (.str "The dat file to read") .argNil))))
    (.assign n!"args" (.call (.attr (.name n!"parser") n!"parse_args") .argNil)
    (.assign n!"dat_file" (.call (.attr (.name n!"DatFile") n!"parse") (.arg (.attr (.name n!"args") n!"filename") .argNil))
    (.expr (.call (.name n!"print") (.arg (.call (.attr (.name n!"json") n!"dumps") (.arg (.call (.attr (.name n!"dataclasses") n!"asdict") (.arg (.name n!"dat_file") .argNil)) (.kw n!"indent" (.int 2) .argNil))) .argNil))
    .done)))))

/-- `main` — `/repo/src/genieutils/scripts.py:22-23`. -/
def Scripts.src_main : Fun where
  name := n!"main"
  kind := .method
  params := []
  body :=
    (.expr (.call (.name n!"dat_to_json") .argNil)
    .done)

/-- The functions of the module `/repo/src/genieutils/scripts.py`. -/
def Scripts.functions : List Fun := [Scripts.src_dat_to_json, Scripts.src_main]

/-- The names that the module `/repo/src/genieutils/scripts.py` imports. -/
def module_scripts : Module where
  name := n!"scripts"
  globals := [
    (n!"argparse", .lib),
    (n!"dataclasses", .lib),
    (n!"json", .lib),
    (n!"Path", .lib),
    (n!"DatFile", .from_ n!"datfile")]

/-- The names that the program imports — `/repo/README.md:34-38`. -/
def module_loom : Module where
  name := n!"readme"
  globals := [
    (n!"DatFile", .from_ n!"datfile")]

/-- The program — `/repo/README.md:34-38`. -/
def program_loom : St :=
  (.assign n!"data" (.call (.attr (.name n!"DatFile") n!"parse") (.arg (.str "path/to/empires2_x2_p1.dat") .argNil))
  (.setAttr (.index (.attr (.index (.attr (.name n!"data") n!"techs") (.int 22)) n!"resource_costs") (.int 0)) n!"amount" (.int 69)
  (.expr (.call (.attr (.name n!"data") n!"save") (.arg (.str "path/to/modded/empires2_x2_p1.dat") .argNil))
  .done)))

/-- The names that the program imports — `/repo/README.md:44-49`. -/
def module_kings : Module where
  name := n!"readme"
  globals := [
    (n!"DatFile", .from_ n!"datfile")]

/-- The program — `/repo/README.md:44-49`. -/
def program_kings : St :=
  (.assign n!"data" (.call (.attr (.name n!"DatFile") n!"parse") (.arg (.str "path/to/empires2_x2_p1.dat") .argNil))
  (.forIn n!"civ" (.attr (.name n!"data") n!"civs")
      (.expr (.call (.attr (.attr (.attr (.index (.attr (.name n!"civ") n!"units") (.int 434)) n!"bird") n!"tasks") n!"pop") .argNil)
      .done)
  (.expr (.call (.attr (.name n!"data") n!"save") (.arg (.str "path/to/modded/empires2_x2_p1.dat") .argNil))
  .done)))

end Genie.Src
