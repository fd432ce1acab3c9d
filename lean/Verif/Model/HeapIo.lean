import Verif.Model.HeapWriters
import Verif.Model.HeapPrograms
import Verif.Model.Io
/-!
# `parse` and `save` on objects

`/repo/src/genieutils/datfile.py:45-55` once more, with the objects on a heap.
-/

namespace Genie

/-- `DatFile.parse(input_file)` — `/repo/src/genieutils/datfile.py:45-50`. -/
def DatFile.parseObject (z : Zlib) (fs : FileSystem) (input_file : Path) (H : Heap) : Outcome (HVal × Heap) :=
  match fs input_file with
  | none => .raised .osError
  | some content =>
    match z.decompress content with
    | none => .raised .zlibError
    | some data =>
      match DatFile.build H (ByteHandler.new data) with
      | .error e => .raised e
      | .ok (o, H', _) => .returned (o, H')

/-- `data.save(target_file)` — `/repo/src/genieutils/datfile.py:52-55`, with room for `depth` nested calls of `to_bytes`. -/
def W.save (z : Zlib) (env : Environment) (fs : FileSystem) (H : Heap) (depth : Nat) (data : HVal) (target_file : Path) :
    FileSystem × Outcome PUnit :=
  match W.toBytes H depth data .UNDEFINED with
  | .error e => (fs, .raised e)
  | .ok uncompressed => writeBytes env fs target_file (z.compress uncompressed)

/-- `data = DatFile.parse(src)`, statements that change `data` in place, `data.save(dst)` — the shape of `/repo/README.md:36-38,46-49`.  An
uncaught exception ends the program.  (The statements do no reading; the byte handler they carry is irrelevant.) -/
def editObject (program : HVal → HReader PUnit) (z : Zlib) (env : Environment) (fs : FileSystem) (H : Heap) (depth : Nat) (src dst : Path) :
    FileSystem × Outcome PUnit :=
  match DatFile.parseObject z fs src H with
  | .raised e => (fs, .raised e)
  | .crashed => (fs, .crashed)
  | .returned (data, H') =>
    match program data H' (ByteHandler.new []) with
    | .error e => (fs, .raised e)
    | .ok (_, H'', _) => W.save z env fs H'' depth data dst

end Genie
