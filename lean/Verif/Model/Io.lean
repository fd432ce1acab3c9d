import Verif.Model.Datfile
/-!
# `DatFile.parse` and `DatFile.save`, `/repo/src/genieutils/datfile.py:45-55`

The file system is a map from paths to contents; zlib is a parameter (its assumed behaviour is `Zlib.Lawful`); an
execution of `Path.write_bytes` is a sequence of file-system operations that may be cut short by a crash or an
`OSError`.
-/

namespace Genie

/-- Paths. -/
abbrev Path := String

/-- A file system: the content of every existing file. -/
def FileSystem := Path → Option Bytes

/-- zlib raw deflate, `zlib.compress(…, level=-1, wbits=-15)` and `zlib.decompress(…, wbits=-15)`; `none` is
`zlib.error`. -/
structure Zlib where
  compress : Bytes → Bytes
  decompress : Bytes → Option Bytes

/-- What is assumed of zlib: decompressing a compressed stream (whatever follows it: CPython ignores what comes after the
end of the stream) gives the data back, and an incomplete stream is rejected ("incomplete or truncated stream"). -/
structure Zlib.Lawful (z : Zlib) : Prop where
  inverse : ∀ data rest, z.decompress (z.compress data ++ rest) = some data
  truncated : ∀ data p, p <+: z.compress data → p ≠ z.compress data → z.decompress p = none

/-- How a call ends: it returns, raises an exception, or the process dies. -/
inductive Outcome (α : Type) where
  | returned (a : α)
  | raised (e : PyErr)
  | crashed
deriving DecidableEq

/-- What `from_bytes` makes of the whole content of a (decompressed) file: `from_bytes(ByteHandler(memoryview(data)))` —
`/repo/src/genieutils/datfile.py:49-50`. -/
def DatFile.ofData (data : Bytes) : Py DatFile :=
  match DatFile.fromBytes (ByteHandler.new data) with
  | .error e => .error e
  | .ok (d, _) => .ok d

/-- `DatFile.parse(input_file)` — `/repo/src/genieutils/datfile.py:45-50`.  Reading a file does not change the file
system; a missing file is an `OSError` (`FileNotFoundError`). -/
def DatFile.parse (z : Zlib) (fs : FileSystem) (input_file : Path) : Outcome DatFile :=
  match fs input_file with
  | none => .raised .osError
  | some content =>
    match z.decompress content with
    | none => .raised .zlibError
    | some data =>
      match DatFile.ofData data with
      | .error e => .raised e
      | .ok d => .returned d

/-- File-system operations of `Path.write_bytes`: opening with mode `'wb'` creates or empties the file, a write appends
some bytes. -/
inductive FsOp where
  | openTruncate (p : Path)
  | append (p : Path) (bs : Bytes)

/-- Effect of one operation. -/
def FsOp.run (fs : FileSystem) : FsOp → FileSystem
  | .openTruncate p => fun q => if q = p then some [] else fs q
  | .append p bs => fun q => if q = p then some ((fs p).getD [] ++ bs) else fs q

/-- Effect of a sequence of operations. -/
def runOps (fs : FileSystem) (ops : List FsOp) : FileSystem := ops.foldl FsOp.run fs

/-- What the environment does during a `write_bytes`: how the data is split into writes, and whether (and after how many
completed operations) the process crashes or an operation raises `OSError`. -/
structure Environment where
  split : Bytes → List Bytes
  split_join : ∀ bs, (split bs).flatten = bs
  /-- `none`: nothing goes wrong. -/
  fault : Option (Nat × Bool)

/-- The operations of `Path(target_file).write_bytes(data)`. -/
def writeOps (env : Environment) (target_file : Path) (data : Bytes) : List FsOp :=
  .openTruncate target_file :: (env.split data).map (.append target_file)

/-- `Path(target_file).write_bytes(data)` in an environment: with a fault `(k, crash)` only the first `k` operations take
place, then the process dies (`crash`) or `OSError` is raised. -/
def writeBytes (env : Environment) (fs : FileSystem) (target_file : Path) (data : Bytes) :
    FileSystem × Outcome PUnit :=
  match env.fault with
  | none => (runOps fs (writeOps env target_file data), .returned ())
  | some (k, crash) =>
    (runOps fs ((writeOps env target_file data).take k), if crash then .crashed else .raised .osError)

/-- `DatFile.save(target_file)` — `/repo/src/genieutils/datfile.py:52-55`. -/
def DatFile.save (z : Zlib) (env : Environment) (fs : FileSystem) (self : DatFile) (target_file : Path) :
    FileSystem × Outcome PUnit :=
  match DatFile.toBytes self with
  | .error e => (fs, .raised e)
  | .ok uncompressed => writeBytes env fs target_file (z.compress uncompressed)

end Genie
