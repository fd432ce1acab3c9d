import Verif.Proof.Source.WriteAll
import Verif.Proof.Source.Keeps
import Verif.Props.C47_AnyObjects
import Verif.Props.C47_SavingObjects
import Verif.Props.C60_Source
/-!
# C61: the source code of the writers

`to_bytes` of every class, executed from its source by the interpreter of C60, against the model of writing.
-/

namespace Genie.Src

/-- Execute `o.to_bytes(ver)`, with at most `room` calls inside each other. -/
def toBytes (room : Nat) (o : HVal) (ver : Version) : M PVal := objMethod (callN room) o n!"to_bytes" ⟨[.version ver], []⟩

/-- The outcome of the interpreter is the outcome of the model: the same exception, or the same bytes; and nothing else has happened. -/
def WritesLike (H : Heap) (s : ByteHandler) (p : Py (PVal × Heap × ByteHandler)) (q : Py Bytes) : Prop :=
  match q with
  | .error e => p = .error e
  | .ok bs => p = .ok (.bytes bs, H, s)

/-- All instances are of classes of the package. -/
def OfPackage (H : Heap) : Prop := ∀ (a : Nat) (c : PyStr) attrs, H[a]? = some (Cell.record c attrs) → c ∈ dataclassNames

theorem OfPackage.known {H : Heap} (h : OfPackage H) : Known H := fun a c attrs hc => known_dataclasses c (h a c attrs hc)

/-- Executing the source of `o.to_bytes(ver)`, for any `o` — an instance of any class, with any attributes, or no instance at all —, among any
objects of classes of the package, does what the model does; unless the model runs out of depth `d`. -/
theorem C61_to_bytes_of_every_object (H : Heap) (hk : OfPackage H) (s : ByteHandler) (o : HVal) (ver : Version) (d room : Nat)
    (hr : 4 * d + 2 ≤ room) (hd : W.toBytes H d o ver ≠ .error .recursionError) :
    WritesLike H s (toBytes room o ver H s) (W.toBytes H d o ver) := by
  have h := source_to_bytes (s := s) hk.known d o ver room hr hd
  unfold WritesLike toBytes
  cases hw : W.toBytes H d o ver with
  | error e => rw [hw] at h; exact h
  | ok bs => rw [hw] at h; exact h

/-- In particular for every object that has a value, if there is room for four calls for each level of nesting (and two more). -/
theorem C61_to_bytes_of_values (H : Heap) (hk : OfPackage H) (s : ByteHandler) (o : HVal) (t : ObjTree) (fp : List Nat) (r : Rep H o t fp)
    (ver : Version) (room : Nat) (hr : 4 * t.height + 2 ≤ room) :
    WritesLike H s (toBytes room o ver H s) (W.toBytes H t.height o ver) :=
  C61_to_bytes_of_every_object H hk s o ver t.height room hr (C47_any_room H o t fp r t.height (Nat.le_refl _) ver)

/-- Executing the source of `DatFile.to_bytes` on objects with the value `d` gives the bytes of `d` — or its exception. -/
theorem C61_save (H : Heap) (hk : OfPackage H) (s : ByteHandler) (o : HVal) (t : ObjTree) (fp : List Nat) (r : Rep H o t fp) (d : DatFile)
    (hc : Carries t (d.object false)) (hs : d.Sized) (room : Nat) (hr : 22 ≤ room) (ver : Version) :
    WritesLike H s (toBytes room o ver H s) d.toBytes := by
  have e := C47_save H o t fp r d hc hs 5 (Nat.le_refl _) ver
  have hne : d.toBytes ≠ .error .recursionError := by
    rw [← C47_save H o t fp r d hc hs (5 + t.height) (by omega) ver]
    exact C47_any_room H o t fp r _ (by omega) ver
  rw [← e] at hne ⊢
  exact C61_to_bytes_of_every_object H hk s o ver 5 room hr hne

/-- Executing any function or method of the package, with any arguments: no object disappears, none becomes an instance of another class,
tuples stay as they are, and new instances are of dataclasses of the package. -/
theorem C61_objects_keep_class (room : Nat) (receiver : PVal) (c f : Name) (as : Args) (H H' : Heap) (s s' : ByteHandler) (v : PVal)
    (h : callN room receiver c f as H s = .ok (v, H', s')) :
    (∀ (a : Nat) cls attrs, H[a]? = some (Cell.record cls attrs) → ∃ attrs', H'[a]? = some (Cell.record cls attrs')) ∧
    (∀ (a : Nat) items, H[a]? = some (Cell.list items) → ∃ items', H'[a]? = some (Cell.list items')) ∧
    (∀ (a : Nat) items, H[a]? = some (Cell.tuple items) → H'[a]? = some (Cell.tuple items)) ∧
    (∀ (a : Nat) cls attrs, H[a]? = none → H'[a]? = some (Cell.record cls attrs) → cls ∈ dataclassNames) ∧
    (OfPackage H → OfPackage H') := by
  have g := Keeps.callN room receiver c f as H s v H' s' h
  refine ⟨fun a cls attrs ha => ?_, fun a items ha => ?_, fun a items ha => ?_, g.new, fun hk a cls attrs ha => ?_⟩
  · obtain ⟨e, h1, h2⟩ := g.old a _ ha
    cases e with
    | record c' at' => cases h2; exact ⟨at', h1⟩
    | _ => exact h2.elim
  · obtain ⟨e, h1, h2⟩ := g.old a _ ha
    cases e with
    | list i => exact ⟨i, h1⟩
    | _ => exact h2.elim
  · obtain ⟨e, h1, h2⟩ := g.old a _ ha
    cases e with
    | tuple i => cases h2; exact h1
    | _ => exact h2.elim
  · cases hb : H[a]? with
    | none => exact g.new a cls attrs hb ha
    | some d =>
      obtain ⟨e, h1, h2⟩ := g.old a _ hb
      rw [ha] at h1
      cases h1
      cases d with
      | record c' at' => cases h2; exact hk a _ _ hb
      | _ => exact h2.elim

/-- Executing the source of `from_bytes` and then that of `to_bytes` on the object it returned.  Whenever the file can be read: it can be
written; the bytes written are those that were read, exactly if reading dropped nothing (`lossy`); and reading them, again from the source,
gives an object with the same value. -/
theorem C61_load_then_save (H : Heap) (hk : OfPackage H) (s s' : ByteHandler) (d : DatFile) (hd : DatFile.fromBytes s = .ok (d, s'))
    (hl : s.lossy = false) (room : Nat) (hr : 22 ≤ room) :
    ∃ v H' t bs fp, fromBytes room n!"DatFile" H s = .ok (.h v, H', t) ∧
      Rep H' v (d.object (decide (s'.version.num < 84))) fp ∧
      (∀ ver, toBytes room v ver H' t = .ok (.bytes bs, H', t)) ∧
      (bs = consumed s s' ↔ s'.lossy = false) ∧
      ∃ w H2 t2 fp2 s2, fromBytes room n!"DatFile" H' (ByteHandler.new bs) = .ok (.h w, H2, t2) ∧
        Rep H2 w (d.object (decide (s2.version.num < 84))) fp2 ∧ DatFile.fromBytes (ByteHandler.new bs) = .ok (d, s2) := by
  obtain ⟨v, N, fp, t, hp, ho, hv, r, nd, fr⟩ := (C60_load room (by omega) H s).2 d s' hd
  obtain ⟨bs, hb, s2, h2⟩ := C14_parsed_can_be_saved _ _ _ hd
  have hk' : OfPackage (H ++ N) := (C61_objects_keep_class room _ _ _ _ _ _ _ _ _ hp).2.2.2.2 hk
  refine ⟨v, H ++ N, t, bs, fp, hp, r, fun ver => ?_, ?_, ?_⟩
  · have := C61_save (H ++ N) hk' t v _ fp r d (DatFile.converts _ d).carries (C13_parsed_wellformed _ _ _ hd).sized room hr ver
    rw [hb] at this
    exact this
  · have := C15_byte_exact_iff_clean s s' d hl hd
    rw [hb] at this
    rw [← this]
    simp
  · obtain ⟨w, N2, fp2, t2, hp2, -, -, r2, -, -⟩ := (C60_load room (by omega) (H ++ N) (ByteHandler.new bs)).2 d s2 h2
    exact ⟨w, H ++ N ++ N2, t2, fp2, s2, hp2, r2, h2⟩

/-- No objects: the case of a program that starts by loading. -/
theorem OfPackage.none : OfPackage [] := fun _ _ _ h => by simp at h

/-- Not a statement about nothing: the interpreter runs `ResearchResourceCost.to_bytes`. -/
example : (match toBytes 6 (.ref 0) .VER_78
      [.record (lit "ResearchResourceCost") [(lit "type", .int 1), (lit "amount", .int (-1)), (lit "flag", .int 1)]] (ByteHandler.new []) with
    | .ok (.bytes bs, _, _) => some bs
    | _ => none) = some [1, 0, 255, 255, 1] := by
  decide +kernel

/-- A field out of range, and a field of a wrong type. -/
example : (match toBytes 6 (.ref 0) .VER_78
      [.record (lit "ResearchResourceCost") [(lit "type", .int 40000), (lit "amount", .int (-1)), (lit "flag", .int 1)]] (ByteHandler.new []) with
    | .error e => some e
    | _ => none) = some .overflowError := by
  decide +kernel

end Genie.Src
