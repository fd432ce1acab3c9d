import Verif.Model.Readme
/-!
# Histories of program runs, and what a user sees of them

A `Session` is one run of a program that loads a file, edits the object and saves it (under the same or another name); the environment
of the run decides whether and where the run is interrupted.  Files are seen through loads: a `Store` gives, for every path, what
`DatFile.parse` gives.
-/

namespace Genie

/-- One run of a program: `data = DatFile.parse(src); …; data.save(dst)`. -/
structure Session where
  src : Path
  edit : DatFile → Py DatFile
  dst : Path
  env : Environment

/-- The disk after a run (whether it returned, raised, or crashed). -/
def Session.run (z : Zlib) (fs : FileSystem) (s : Session) : FileSystem := (editFile s.edit z s.env fs s.src s.dst).1

/-- The disk after a history of runs. -/
def runHistory (z : Zlib) (fs : FileSystem) (history : List Session) : FileSystem := history.foldl (Session.run z) fs

/-- For every path, what loading it gives. -/
abbrev Store := Path → Outcome DatFile

/-- What the loads give on a disk. -/
def loads (z : Zlib) (fs : FileSystem) : Store := fun p => DatFile.parse z fs p

/-- The store with a new entry. -/
def Store.put (st : Store) (p : Path) (o : Outcome DatFile) : Store := fun q => if q = p then o else st q

/-- How a call ends that cannot crash. -/
def outcomeOf (x : Py α) : Outcome α :=
  match x with
  | .ok a => .returned a
  | .error e => .raised e

/-- What a complete save of an object and a load make of it; `none` if the object cannot be written. -/
def comesBack (d : DatFile) : Option (Outcome DatFile) :=
  match DatFile.toBytes d with
  | .error _ => none
  | .ok bs => some (outcomeOf (DatFile.ofData bs))

/-- The entry that a run is about to make: none if the source cannot be loaded, the edit raises, or its result cannot be written. -/
def Session.entry (st : Store) (s : Session) : Option (Outcome DatFile) :=
  match st s.src with
  | .returned d =>
    match s.edit d with
    | .ok d' => comesBack d'
    | .error _ => none
  | _ => none

/-- What a run that is not interrupted does to a store. -/
def Session.apply (st : Store) (s : Session) : Store :=
  match s.entry st with
  | some o => st.put s.dst o
  | none => st

/-- What a run, interrupted or not, may do to a store: nothing; make its entry; or leave a file that cannot be decompressed. -/
inductive Session.May (s : Session) (st : Store) : Store → Prop
  | nothing : May s st st
  | done : May s st (s.apply st)
  | broken (o : Outcome DatFile) (h : s.entry st = some o) (hf : s.env.fault ≠ none) : May s st (st.put s.dst (.raised .zlibError))

/-- The stores a history may lead to. -/
inductive MayLead : Store → List Session → Store → Prop
  | nil (st : Store) : MayLead st [] st
  | cons {st st' st'' : Store} {s : Session} {history : List Session} (h : s.May st st') (t : MayLead st' history st'') :
    MayLead st (s :: history) st''

end Genie
