import Verif.Model.Asdict
import Verif.Model.Io
/-!
# `/repo/src/genieutils/scripts.py`: `dat-to-json`

The command line parser (`/repo/src/genieutils/scripts.py:11-16`) is not modelled: the program is a function of the file name.
-/

namespace Genie

/-- Was the file read with the reader for versions before 8.4, which stores an `int` in `invulnerability_level`?
(`/repo/src/genieutils/unit.py:509-514,551`) -/
def DatFile.old (self : DatFile) : Bool :=
  match Version.ofStr self.version with
  | .ok v => v.lt .VER_84
  | .error _ => false

/-- `dataclasses.asdict(dat_file)` of a file just read — `/repo/src/genieutils/scripts.py:19`. -/
def DatFile.tree (self : DatFile) : PyTree := DatFile.asdict self.old self

/-- `dat_to_json()` — `/repo/src/genieutils/scripts.py:10-19`: the text printed to the standard output (`print` adds a line feed), or the
exception that ends the program before it prints anything. -/
def datToJson (repr : Json.FloatRepr) (z : Zlib) (fs : FileSystem) (filename : Path) : Outcome PyStr :=
  match DatFile.parse z fs filename with
  | .returned dat_file => .returned (Json.dumps repr dat_file.tree ++ [10])
  | .raised e => .raised e
  | .crashed => .crashed

end Genie
