import Verif.Props.C45_Objects
import Verif.Proof.Heap.Typed
/-!
# C46: loaded objects have the types the class definitions declare

`Declares` (`Verif/Spec/Annotations.lean`) lists the class definitions, `HasType` (`Verif/Spec/Types.lean`) says what it means to be an
instance of an annotation: exact classes, exactly the declared attributes, tuples of exactly the declared length, every element.
-/

namespace Genie

/-- Whatever `DatFile.from_bytes` returns is an instance of `DatFile` with every attribute, at any depth, of its declared type.  The one
exception is in files before 8.4, where `Creatable.invulnerability_level: float` holds an `int`. -/
theorem C46_loaded_types (H H' : Heap) (s s' : ByteHandler) (v : HVal) (h : DatFile.build H s = .ok (v, H', s')) :
    ∃ t, IsTree H' v t ∧ HasType (Declares (decide (s'.version.num < 84))) (.cls (lit "DatFile")) t := by
  obtain ⟨d, N, fp, hd, rfl, r, nd, fr⟩ := load_value h
  exact ⟨_, ⟨fp, r, nd⟩, DatFile.typed (C13_parsed_wellformed _ _ _ hd)⟩

/-- From 8.4 on there is no exception: the annotations hold as written. -/
theorem C46_loaded_types_84 (H H' : Heap) (s s' : ByteHandler) (v : HVal) (h : DatFile.build H s = .ok (v, H', s'))
    (hv : 84 ≤ s'.version.num) : ∃ t, IsTree H' v t ∧ HasType (Declares false) (.cls (lit "DatFile")) t := by
  have := C46_loaded_types H H' s s' v h
  rwa [show decide (s'.version.num < 84) = false by simp; omega] at this

theorem Declares.creatable {old : Bool} {fs : List (PyStr × Ann)} (h : Declares old (lit "Creatable") fs) : fs = Creatable.annotations old := by
  generalize e : lit "Creatable" = c at h
  cases h <;> first | (exfalso; revert e; decide +kernel) | rfl

theorem annotations_old : Creatable.annotations true =
    (Creatable.annotations false).map (fun f => if f.1 = lit "invulnerability_level" then (f.1, .int) else f) := rfl

/-- The two tables of declarations differ in that one annotation only. -/
theorem C46_exception (c : PyStr) (fs : List (PyStr × Ann)) :
    (c ≠ lit "Creatable" → (Declares true c fs ↔ Declares false c fs)) ∧
    (Declares true (lit "Creatable") fs ↔ ∃ fs', Declares false (lit "Creatable") fs' ∧
      fs = fs'.map (fun f => if f.1 = lit "invulnerability_level" then (f.1, .int) else f)) := by
  refine ⟨fun hc => ⟨Declares.change hc, Declares.change hc⟩, fun h => ?_, fun h => ?_⟩
  · refine ⟨_, .Creatable, ?_⟩
    rw [Declares.creatable h]
    exact annotations_old
  · obtain ⟨fs', h', rfl⟩ := h
    rw [Declares.creatable h', ← annotations_old]
    exact .Creatable

/-- Tuples cannot be edited in place: on a reference to a tuple, `.append`, `.pop`, `.insert`, `del` and item assignment raise (and so does
assigning to an attribute), so tuples keep their length and elements as long as the attribute that holds them is not replaced. -/
theorem C46_tuples_immutable (H : Heap) (a : Nat) (vs : List HVal) (h : H[a]? = some (.tuple vs)) (v : HVal) (st : Stmt) (s : ByteHandler) :
    st.run (.ref a) v H s = .error (match st with | .setItem _ | .delItem _ | .delSlice _ _ => .typeError | _ => .attributeError) := by
  cases st <;>
    simp [Stmt.run, HReader.setAttr, HReader.setItem, HReader.append, HReader.pop, HReader.insert, HReader.delItem, HReader.delSlice, HReader.cell, HReader.raise, bind, h]

/-- Such a tuple exists, and it is not only that everything raises: a list can be edited. -/
example : errorOf (Stmt.append.run (.ref 0) (.int 1) [.tuple [.int 7]] (ByteHandler.new [])) = some .attributeError ∧
    (resultOf (Stmt.append.run (.ref 0) (.int 1) [.list [.int 7]] (ByteHandler.new []))).map (·.2.1) = some [.list [.int 7, .int 1]] := by
  decide +kernel

end Genie
