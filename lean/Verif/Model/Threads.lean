import Verif.Model.HeapScripts
/-!
# Threads

Several scripts run as threads of one process: they share the memory and the files, and each has its own variables.  The package keeps no state of
its own (no globals, no caches: `/repo/src/genieutils/common.py` and the record classes define functions and constants only), so a thread is a
script.  Simplification: an action (`Action`) takes place without interruption.  `parse` and `save` take long and are interrupted in reality, but
on objects that other threads do not know nobody else can tell the difference.
-/

namespace Genie

/-- The files, the objects in memory, and the threads: the state of each, and the objects it has got to know. -/
structure Together (σ : Type) where
  disk : FileSystem
  heap : Heap
  threads : List (σ × List HVal)

/-- A process on its way, or after a crash, which leaves the files only. -/
inductive Live (S : Type) where
  | running (s : S)
  | crashed (disk : FileSystem)

/-- One action of the thread number `k`; nothing happens if there is no such thread or if it has ended.  `P` is the program of all threads (their
states may say which part of it they run) — `/repo/src/genieutils/datfile.py:45-55` for `parse` and `save`. -/
def Together.step (P : Script σ α) (z : Zlib) (env : Environment) (depth k : Nat) (T : Together σ) : Live (Together σ) :=
  match T.threads[k]? with
  | none => .running T
  | some (st, names) =>
    match P st with
    | .stop _ => .running T
    | .call a next =>
      match Situation.act z env depth ⟨T.disk, ⟨T.heap, names⟩⟩ a with
      | (.returned v, S') => .running ⟨S'.disk, S'.memory.heap, T.threads.set k (next (.ok v), S'.memory.names)⟩
      | (.raised e, S') => .running ⟨S'.disk, S'.memory.heap, T.threads.set k (next (.error e), S'.memory.names)⟩
      | (.crashed, S') => .crashed S'.disk

/-- The first `n` actions of all threads; `schedule i` is the thread whose turn it is at the moment `i`, and `env i` what happens then. -/
def Together.run (P : Script σ α) (z : Zlib) (env : Nat → Environment) (depth : Nat) (schedule : Nat → Nat) (T : Together σ) : Nat → Live (Together σ)
  | 0 => .running T
  | n + 1 =>
    match T.run P z env depth schedule n with
    | .running T' => T'.step P z (env n) depth (schedule n)
    | .crashed disk => .crashed disk

end Genie
