import Verif.Model.Readme
/-!
# Programs that run at the same time

Several processes, each running `data = DatFile.parse(src); …; data.save(dst)` (the shape of the programs in `/repo/README.md:36-38,46-49`),
share a disk.  The functions that touch the disk are `Path.read_bytes` (`/repo/src/genieutils/datfile.py:47`) and `Path.write_bytes`
(`/repo/src/genieutils/datfile.py:55`); neither is atomic.  `read_bytes` opens the file and reads piece by piece, each piece from where the
last one ended, until there is nothing more; `write_bytes` opens the file, which empties it, and writes piece by piece, each piece at the
position behind the last one.  What happens between two such system calls of one process is up to the others.  No process removes or
renames files, so an open file is the path it was opened with.
-/

namespace Genie

/-- Where a process stands. -/
inductive Phase where
  /-- About to open the source. -/
  | start
  /-- The source is open, and this much of it was read. -/
  | reading (buffer : Bytes)
  /-- `content = Path(input_file).read_bytes()` is done. -/
  | loaded (content : Bytes)
  /-- About to open the target. -/
  | opening (compressed : Bytes)
  /-- The target is open; this was written, and this remains. -/
  | writing (done rest : Bytes)
  | ended (how : Outcome PUnit)
deriving DecidableEq

/-- A process. -/
structure Process where
  src : Path
  edit : DatFile → Py DatFile
  dst : Path
  phase : Phase

/-- What a process does between reading its source and opening its target — `/repo/src/genieutils/datfile.py:48-50`, the edit, and
`/repo/src/genieutils/datfile.py:53-54`. -/
def Process.compute (z : Zlib) (p : Process) (content : Bytes) : Phase :=
  match z.decompress content with
  | none => .ended (.raised .zlibError)
  | some data =>
    match DatFile.ofData data with
    | .error e => .ended (.raised e)
    | .ok d =>
      match p.edit d with
      | .error e => .ended (.raised e)
      | .ok d' =>
        match DatFile.toBytes d' with
        | .error e => .ended (.raised e)
        | .ok uncompressed => .opening (z.compress uncompressed)

/-- The content of a file after `bs` was written at a position: what was there is overwritten, and if the file is shorter than the position
(someone has emptied it) the gap is filled with zeros. -/
def overwrite (content : Bytes) (position : Nat) (bs : Bytes) : Bytes :=
  content.take position ++ List.replicate (position - content.length) 0 ++ bs ++ content.drop (position + bs.length)

/-- A disk with new content in one file. -/
def FileSystem.put (fs : FileSystem) (p : Path) (content : Bytes) : FileSystem := fun q => if q = p then some content else fs q

/-- One step of one process, when nothing goes wrong: the disk and the phase after it. -/
inductive Process.Act (z : Zlib) (fs : FileSystem) (p : Process) : Phase → FileSystem → Phase → Prop
  /-- `open(src, 'rb')`. -/
  | openRead {content : Bytes} : fs p.src = some content → Act z fs p .start fs (.reading [])
  /-- `open(src, 'rb')` of a missing file. -/
  | missing : fs p.src = none → Act z fs p .start fs (.ended (.raised .osError))
  /-- A `read` returns some bytes, as many as it likes. -/
  | read {buffer content piece rest : Bytes} : fs p.src = some content → content.drop buffer.length = piece ++ rest → piece ≠ [] →
      Act z fs p (.reading buffer) fs (.reading (buffer ++ piece))
  /-- A `read` at the end of the file returns nothing. -/
  | eof {buffer content : Bytes} : fs p.src = some content → content.length ≤ buffer.length →
      Act z fs p (.reading buffer) fs (.loaded buffer)
  /-- The computation between reading and writing. -/
  | compute {content : Bytes} : Act z fs p (.loaded content) fs (p.compute z content)
  /-- `open(dst, 'wb')`. -/
  | openWrite {compressed : Bytes} : Act z fs p (.opening compressed) (fs.put p.dst []) (.writing [] compressed)
  /-- A `write` of some bytes, as many as it likes. -/
  | write {done piece rest content : Bytes} : piece ≠ [] → fs p.dst = some content →
      Act z fs p (.writing done (piece ++ rest)) (fs.put p.dst (overwrite content done.length piece)) (.writing (done ++ piece) rest)
  /-- `close`. -/
  | close {done : Bytes} : Act z fs p (.writing done []) fs (.ended (.returned ()))

/-- One step that goes wrong: the process is killed, or a call of the operating system raises `OSError`. -/
inductive Process.Fault : Phase → Phase → Prop
  | killed {ph : Phase} : (∀ how, ph ≠ .ended how) → Fault ph (.ended .crashed)
  | error {ph : Phase} : (∀ how, ph ≠ .ended how) → (∀ c, ph ≠ .loaded c) → Fault ph (.ended (.raised .osError))

/-- The disk and all processes. -/
structure World where
  disk : FileSystem
  procs : List Process

/-- One of the processes takes a step; `faults` says whether steps may go wrong. -/
inductive World.Step (z : Zlib) (faults : Bool) (w : World) : World → Prop
  | act {i : Nat} {p : Process} {fs : FileSystem} {ph : Phase} : w.procs[i]? = some p → p.Act z w.disk p.phase fs ph →
      Step z faults w ⟨fs, w.procs.set i { p with phase := ph }⟩
  | fault {i : Nat} {p : Process} {ph : Phase} : faults = true → w.procs[i]? = some p → Process.Fault p.phase ph →
      Step z faults w ⟨w.disk, w.procs.set i { p with phase := ph }⟩

/-- Any number of steps, in any order: a schedule. -/
inductive World.Runs (z : Zlib) (faults : Bool) : World → World → Prop
  | refl (w : World) : Runs z faults w w
  | step {w w' w'' : World} : World.Step z faults w w' → Runs z faults w' w'' → Runs z faults w w''

end Genie
