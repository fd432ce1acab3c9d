import Verif.Model.Processes
import Verif.Spec.Store
/-!
# What independent processes are, and what a process does alone
-/

namespace Genie

/-- Nobody writes to a file that another one reads or writes.  (Several may read the same file, and one may overwrite its own source.) -/
def Independent (ps : List Process) : Prop :=
  ∀ (i j : Nat) (p q : Process), i ≠ j → ps[i]? = some p → ps[j]? = some q → p.dst ≠ q.src ∧ p.dst ≠ q.dst

/-- An environment in which nothing goes wrong, and data is written in one piece. -/
def Environment.plain : Environment where
  split bs := [bs]
  split_join bs := by simp
  fault := none

/-- The same program as a single uninterrupted run. -/
def Process.session (p : Process) : Session := ⟨p.src, p.edit, p.dst, .plain⟩

/-- The disk after running the program of a process alone, and how it ends. -/
def Process.alone (z : Zlib) (fs : FileSystem) (p : Process) : FileSystem × Outcome PUnit := editFile p.edit z .plain fs p.src p.dst

end Genie
