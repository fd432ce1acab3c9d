import Verif.Proof.Heap.AlikeRep
import Verif.Props.C47_SavingObjects
/-!
# C47, continued: objects of any types, shared or cyclic

What `to_bytes` and `save` do with objects that are not of the declared types, that share parts, or that contain themselves.
-/

namespace Genie
open HReader ObjTree

/-- What `to_bytes` gives — bytes or an exception — is decided by what can be seen of the object through attribute accesses and subscriptions
(`Verif/Spec/Alike.lean`): for objects of any types, with sharing and with cycles, in any heap. -/
theorem C47_looks_decide (H1 H2 : Heap) (o1 o2 : HVal) (h : Alike H1 o1 H2 o2) (depth : Nat) (ver : Version) :
    W.toBytes H1 depth o1 ver = W.toBytes H2 depth o2 ver :=
  W.toBytes_alike depth h ver

/-- To look like an object with value `t` is to have the value `t`. -/
theorem C47_looks_iff_value (H1 H2 : Heap) (o1 o2 : HVal) (t : ObjTree) (fp : List Nat) (r : Rep H1 o1 t fp) (nm : t.Named) :
    Alike H1 o1 H2 o2 ↔ ∃ fp2, Rep H2 o2 t fp2 :=
  ⟨fun h => r.of_alike nm h, fun ⟨_, r2⟩ => r.alike r2⟩

/-- Two objects with the same value, of whatever types and with whatever sharing, are written alike: the same bytes or the same exception. -/
theorem C47_value_decides (H1 H2 : Heap) (o1 o2 : HVal) (t : ObjTree) (fp1 fp2 : List Nat) (r1 : Rep H1 o1 t fp1) (r2 : Rep H2 o2 t fp2)
    (depth : Nat) (ver : Version) : W.toBytes H1 depth o1 ver = W.toBytes H2 depth o2 ver :=
  W.toBytes_alike depth (r1.alike r2) ver

/-- The exceptions that `to_bytes` can raise, on objects of any types. -/
theorem C47_any_error (H : Heap) (o : HVal) (depth : Nat) (ver : Version) (e : PyErr) (h : W.toBytes H depth o ver = .error e) :
    e = .overflowError ∨ e = .structError ∨ e = .assertionError ∨ e = .unicodeEncodeError ∨ e = .valueError ∨ e = .indexError ∨
    e = .typeError ∨ e = .attributeError ∨ e = .recursionError := by
  rcases W.toBytes_only depth o ver e h with k | k
  · unfold PyErr.OfWriting at k
    rcases k with k | k | k | k | k | k | k | k <;> simp [k]
  · simp [k]

/-- `RecursionError` is only raised for objects that are nested more deeply than there is room for (or that contain themselves). -/
theorem C47_any_room (H : Heap) (o : HVal) (t : ObjTree) (fp : List Nat) (r : Rep H o t fp) (depth : Nat) (hd : t.height ≤ depth) (ver : Version) :
    W.toBytes H depth o ver ≠ .error .recursionError := by
  intro h
  have := W.toBytes_room depth r hd ver _ h
  unfold PyErr.OfWriting at this
  rcases this with k | k | k | k | k | k | k | k <;> cases k

/-- `save` of an object that cannot be written leaves the disk as it was, whatever is wrong with the object: everything is written to memory
first.  Otherwise it does what `save` of those bytes does. -/
theorem C47_any_save (z : Zlib) (env : Environment) (fs : FileSystem) (H : Heap) (o : HVal) (depth : Nat) (p : Path) :
    (∀ e, W.toBytes H depth o .UNDEFINED = .error e → W.save z env fs H depth o p = (fs, .raised e)) ∧
    (∀ bs, W.toBytes H depth o .UNDEFINED = .ok bs → W.save z env fs H depth o p = writeBytes env fs p (z.compress bs)) := by
  constructor
  · intro e h
    unfold W.save
    rw [h]
  · intro bs h
    unfold W.save
    rw [h]

/-- A whole program — load, any statements, of whatever types, save.  If the file cannot be loaded, or a statement raises, the disk stays as it
was; otherwise what is saved is an object with the value that the statements make of the loaded value. -/
theorem C47_any_program (z : Zlib) (env : Environment) (fs : FileSystem) (H : Heap) (depth : Nat) (src dst : Path) (es : List Edit) :
    match DatFile.parse z fs src with
    | .raised e => editObject (fun o => runEdits o es) z env fs H depth src dst = (fs, .raised e)
    | .crashed => False
    | .returned d =>
      match editTree es (d.object d.old) with
      | .error e => editObject (fun o => runEdits o es) z env fs H depth src dst = (fs, .raised e)
      | .ok t => ∃ H' o fp, Rep H' o t fp ∧ fp.Nodup ∧
          editObject (fun o => runEdits o es) z env fs H depth src dst = W.save z env fs H' depth o dst := by
  have hp := C47_parse z fs src H
  unfold editObject
  cases e : DatFile.parse z fs src with
  | raised x => rw [e] at hp; dsimp only at hp ⊢; rw [hp]
  | crashed => rw [e] at hp; exact hp.elim
  | returned d =>
    rw [e] at hp
    obtain ⟨o, N, fp, h1, r, nd, fr, v, hw⟩ := hp
    rw [h1]
    dsimp only
    have main := C45_statements _ o _ fp r nd es (ByteHandler.new [])
    cases e2 : editTree es (d.object d.old) with
    | error x => rw [e2] at main; dsimp only at main ⊢; rw [main]
    | ok t =>
      rw [e2] at main
      obtain ⟨H', fp', h2, r', nd', _⟩ := main
      dsimp only
      rw [h2]
      exact ⟨H', o, fp', r', nd', rfl⟩

/-- What such a program does to the disk does not depend on what else the process has in memory. -/
theorem C47_any_program_heap (z : Zlib) (env : Environment) (fs : FileSystem) (H1 H2 : Heap) (depth : Nat) (src dst : Path) (es : List Edit) :
    editObject (fun o => runEdits o es) z env fs H1 depth src dst = editObject (fun o => runEdits o es) z env fs H2 depth src dst := by
  have h1 := C47_any_program z env fs H1 depth src dst es
  have h2 := C47_any_program z env fs H2 depth src dst es
  cases e : DatFile.parse z fs src with
  | raised x => rw [e] at h1 h2; dsimp only at h1 h2; rw [h1, h2]
  | crashed => rw [e] at h1; exact h1.elim
  | returned d =>
    rw [e] at h1 h2
    dsimp only at h1 h2
    cases e2 : editTree es (d.object d.old) with
    | error x => rw [e2] at h1 h2; dsimp only at h1 h2; rw [h1, h2]
    | ok t =>
      rw [e2] at h1 h2
      obtain ⟨H1', o1, f1, r1, _, k1⟩ := h1
      obtain ⟨H2', o2, f2, r2, _, k2⟩ := h2
      rw [k1, k2]
      unfold W.save
      rw [C47_value_decides H1' H2' o1 o2 t f1 f2 r1 r2 depth .UNDEFINED]

/-! ## examples -/

/-- A list that contains itself looks like a list that contains a list that contains the first. -/
example : Alike [.list [.ref 0]] (.ref 0) [.list [.ref 1], .list [.ref 0]] (.ref 0) := by
  have key : ∀ p, ((Heap.follow [.list [.ref 0]] (.ref 0) p).map (Heap.shape [.list [.ref 0]]) =
      (Heap.follow [.list [.ref 1], .list [.ref 0]] (.ref 0) p).map (Heap.shape [.list [.ref 1], .list [.ref 0]])) ∧
      ((Heap.follow [.list [.ref 0]] (.ref 0) p).map (Heap.shape [.list [.ref 0]]) =
      (Heap.follow [.list [.ref 1], .list [.ref 0]] (.ref 1) p).map (Heap.shape [.list [.ref 1], .list [.ref 0]])) := by
    intro p
    induction p with
    | nil => exact ⟨rfl, rfl⟩
    | cons st p ih =>
      cases st with
      | attr n => exact ⟨rfl, rfl⟩
      | item i =>
        cases i with
        | zero => exact ⟨ih.2, ih.1⟩
        | succ i => exact ⟨rfl, rfl⟩
  exact fun p => (key p).1

/-- It unfolds to no tree. -/
example : ¬ ∃ t fp, Rep [.list [.ref 0]] (.ref 0) t fp := by
  rintro ⟨t, fp, r⟩
  obtain ⟨fps, _, h⟩ := r.acyclic
  have := r.follow_self (p := [.item 0]) rfl
  cases this

/-- An effect whose list of commands is a string, or `None`, or has a number among its elements, or whose commands lack an attribute: no such object
can be written, and none of them fits the annotations. -/
example :
    errorOf (W.toBytes [.record (lit "Effect") [(lit "name", .str (lit "x")), (lit "effect_commands", .str (lit "ab"))]] 4 (.ref 0) .VER_88) =
      some .attributeError ∧
    errorOf (W.toBytes [.record (lit "Effect") [(lit "name", .str (lit "x")), (lit "effect_commands", .none)]] 4 (.ref 0) .VER_88) =
      some .typeError ∧
    errorOf (W.toBytes [.record (lit "Effect") [(lit "name", .str (lit "x")), (lit "effect_commands", .ref 1)], .list [.int 1]] 4 (.ref 0) .VER_88) =
      some .typeError ∧
    errorOf (W.toBytes [.record (lit "Effect") [(lit "name", .str (lit "x")), (lit "effect_commands", .ref 1)], .list [.ref 2],
      .record (lit "EffectCommand") []] 4 (.ref 0) .VER_88) = some .attributeError ∧
    errorOf (W.toBytes [.record (lit "Effect") [(lit "name", .int 3), (lit "effect_commands", .ref 1)], .list []] 4 (.ref 0) .VER_88) =
      some .attributeError := by decide +kernel

/-- The empty string, or a list of `None`s counted as such, can stand for a list: not everything that can be written fits the annotations. -/
example :
    resultOf (W.toBytes [.record (lit "Effect") [(lit "name", .str []), (lit "effect_commands", .str [])]] 4 (.ref 0) .VER_88) =
      some [0x60, 0x0A, 0, 0, 0, 0] ∧
    resultOf (W.toBytes [.record (lit "Effect") [(lit "name", .str []), (lit "effect_commands", .ref 1)], .list [.none]] 4 (.ref 0) .VER_88) =
      some [0x60, 0x0A, 0, 0, 1, 0] := by decide +kernel

end Genie
