import Verif.Proof.Source.Reads
import Verif.Model.TextCommon
import Verif.Model.Source
import Verif.Model.SourceIo
/-!
# What the parser makes of the files: the trees

By computation in the kernel: the text of a file is one closed term, its tree another.
-/

namespace Genie.Src.Text

/-- The trees of `/repo/src/genieutils/versions.py`. -/
def tree_versions : Parsed where
  globals := module_versions.globals
  classes := [Version.src]
  funs := []
  body := .done

theorem reads_versions : parseModule n!"versions" text_versions = some tree_versions := Parsed.same_eq (by decide +kernel)

/-- The trees of `/repo/src/genieutils/datatypes.py`. -/
def tree_datatypes : Parsed where
  globals := module_datatypes.globals
  classes := [String.src, Int.src, Float.src]
  funs := []
  body := .done

theorem reads_datatypes : parseModule n!"datatypes" text_datatypes = some tree_datatypes := Parsed.same_eq (by decide +kernel)

/-- The trees of `/repo/src/genieutils/common.py`. -/
def tree_common : Parsed where
  globals := module_common.globals.take 13 ++ (n!"C", .const typeVar) :: module_common.globals.drop 13
  classes := [UnitType.src, GenieClass.src, ByteHandler.src]
  funs := []
  body := .done

theorem reads_common : parseModule n!"common" text_common = some tree_common := Parsed.same_eq (by decide +kernel)

/-- The trees of `/repo/src/genieutils/scripts.py`. -/
def tree_scripts : Parsed where
  globals := module_scripts.globals
  classes := []
  funs := Scripts.functions
  body := main

theorem reads_scripts : parseModule n!"scripts" text_scripts = some tree_scripts := Parsed.same_eq (by decide +kernel)

theorem reads_loom : parseProgram text_loom = some { globals := module_loom.globals, classes := [], funs := [], body := program_loom } :=
  Parsed.same_eq (by decide +kernel)

theorem reads_kings : parseProgram text_kings = some { globals := module_kings.globals, classes := [], funs := [], body := program_kings } :=
  Parsed.same_eq (by decide +kernel)

end Genie.Src.Text
