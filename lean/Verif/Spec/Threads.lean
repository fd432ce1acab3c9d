import Verif.Model.Threads
import Verif.Spec.Forest
import Verif.Spec.TypedScripts
/-!
# Threads that share no objects

What such threads mean: each has trees of values of its own; they share the files.
-/

namespace Genie

/-- The files, and the threads: the state of each, and its trees. -/
structure OwnTrees (σ : Type) where
  disk : FileSystem
  threads : List (σ × Forest)

/-- One action of a thread, on values. -/
def OwnTrees.step (P : Script σ α) (z : Zlib) (env : Environment) (depth k : Nat) (A : OwnTrees σ) : Option (Live (OwnTrees σ)) :=
  match A.threads[k]? with
  | none => some (.running A)
  | some (st, F) =>
    match P st with
    | .stop _ => some (.running A)
    | .call a next =>
      match a.onForest z env depth ⟨A.disk, F⟩ with
      | none => none
      | some (.returned v, S') => some (.running ⟨S'.disk, A.threads.set k (next (.ok v), S'.memory)⟩)
      | some (.raised e, S') => some (.running ⟨S'.disk, A.threads.set k (next (.error e), S'.memory)⟩)
      | some (.crashed, S') => some (.crashed S'.disk)

/-- The first `n` actions of all threads, on values. -/
def OwnTrees.run (P : Script σ α) (z : Zlib) (env : Nat → Environment) (depth : Nat) (schedule : Nat → Nat) (A : OwnTrees σ) : Nat → Option (Live (OwnTrees σ))
  | 0 => some (.running A)
  | n + 1 =>
    match A.run P z env depth schedule n with
    | some (.running A') => A'.step P z (env n) depth (schedule n)
    | x => x

/-- The threads share no objects, and have these trees (`fps k` are the objects of the thread `k`). -/
def ThreadsHold (T : Together σ) (A : OwnTrees σ) : Prop :=
  T.disk = A.disk ∧ T.threads.length = A.threads.length ∧ ∃ fps : Nat → List Nat,
    (∀ (k : Nat) (st : σ) (F : Forest), A.threads[k]? = some (st, F) → ∃ names roots, T.threads[k]? = some (st, names) ∧
      Holds ⟨T.heap, names⟩ F roots (fps k)) ∧
    ∀ i j, i < A.threads.length → j < A.threads.length → i ≠ j → ∀ b ∈ fps i, b ∉ fps j

/-- The same for a process that may have crashed. -/
def Live.Hold : Live (Together σ) → Live (OwnTrees σ) → Prop
  | .running T, .running A => ThreadsHold T A
  | .crashed disk, .crashed disk' => disk = disk'
  | _, _ => False

/-- The file an action is about. -/
def Action.path : Action → Option Path
  | .op _ => none
  | .parse p | .save _ p => some p

/-- From a state in `I` on, the script uses files in `own` only. -/
def Script.KeepsTo (P : Script σ α) (I : σ → Prop) (own : Path → Prop) : Prop :=
  ∀ st a next, I st → P st = .call a next → (∀ p, a.path = some p → own p) ∧ ∀ r, I (next r)

/-- The moments before `n` at which it is the turn of the thread `k`. -/
def turns (schedule : Nat → Nat) (k n : Nat) : List Nat := (List.range n).filter fun i => schedule i = k

/-- What happens at its turns. -/
def during (env : Nat → Environment) (schedule : Nat → Nat) (k n : Nat) (i : Nat) : Environment := env ((turns schedule k n).getD i 0)

/-- Each thread is where a type checker thinks it can be (`can st types`): every object in memory has one type, whichever thread knows it, and those
that a thread knows have the types that the checker thinks. -/
def Together.Typed (D : PyStr → List (PyStr × Ann) → Prop) (can : σ → List Ann → Prop) (T : Together σ) : Prop :=
  ∃ typeOf, T.heap.Typed D typeOf ∧
    ∀ (k : Nat) (st : σ) (names : List HVal), T.threads[k]? = some (st, names) → ∃ types, can st types ∧ NamesTyped typeOf names types

end Genie
