import Verif.Proof.Source.IoRoom
import Verif.Props.C63_SourceOptimized
/-!
# C64: the recursion limit, from the source

`sys.getrecursionlimit()` decides one thing only: whether there is a `RecursionError`.  An execution — of any function of the package, with or without
`-O`, of `parse`, `save`, `dat_to_json` or any program over them — that does not end in `RecursionError` ends in the same way with every larger limit.
-/

namespace Genie.Src

/-- Any function of the package. -/
theorem C64_every_function (room room' : Nat) (hr : room ≤ room') (receiver : PVal) (c f : Name) (as : Args) (H : Heap) (s : ByteHandler)
    (h : callN room receiver c f as H s ≠ .error .recursionError) : callN room' receiver c f as H s = callN room receiver c f as H s := by
  obtain ⟨k, rfl⟩ : ∃ k, room' = room + k := ⟨room' - room, by omega⟩
  rcases callN_upto room k receiver c f as H s with ⟨h', -⟩ | ⟨e, rfl, h'⟩
  · exact h'.symm
  · exact absurd h' h

/-- Any function of the package, with `-O`. -/
theorem C64_optimized (room room' : Nat) (hr : room ≤ room') (receiver : PVal) (c f : Name) (as : Args) (H : Heap) (s : ByteHandler)
    (h : callO room receiver c f as H s ≠ .error .recursionError) : callO room' receiver c f as H s = callO room receiver c f as H s := by
  obtain ⟨k, rfl⟩ : ∃ k, room' = room + k := ⟨room' - room, by omega⟩
  rcases callO_room room k receiver c f as H s with ⟨h', -⟩ | ⟨e, rfl, h'⟩
  · exact h'.symm
  · exact absurd h' h

/-- So the limit can be chosen: two limits that are both enough give the same outcome. -/
theorem C64_no_choice (room room' : Nat) (receiver : PVal) (c f : Name) (as : Args) (H : Heap) (s : ByteHandler)
    (h : callN room receiver c f as H s ≠ .error .recursionError) (h' : callN room' receiver c f as H s ≠ .error .recursionError) :
    callN room receiver c f as H s = callN room' receiver c f as H s := by
  rcases Nat.le_total room room' with hr | hr
  · exact (C64_every_function room room' hr receiver c f as H s h).symm
  · exact C64_every_function room' room hr receiver c f as H s h'

/-- `DatFile.parse`, `DatFile.save`, `dat_to_json`, `main`: on files, objects and output. -/
theorem C64_files (P : Platform) (room room' : Nat) (hr : room ≤ room') (c f : Name) (as : List IVal) (w : World)
    (h : ∀ w', callIo P room c f as w ≠ (w', .raised .recursionError)) : callIo P room' c f as w = callIo P room c f as w := by
  obtain ⟨k, rfl⟩ : ∃ k, room' = room + k := ⟨room' - room, by omega⟩
  rcases callIo_room P k room c f as w with h' | ⟨w', h'⟩
  · exact h'.symm
  · exact absurd h' (h w')

/-- Any program made of the statements that the README's programs use. -/
theorem C64_program (P : Platform) (room room' : Nat) (hr : room ≤ room') (m : Module) (body : St) (w : World)
    (h : ∀ w', runProgram P room m body w ≠ (w', .raised .recursionError)) : runProgram P room' m body w = runProgram P room m body w := by
  obtain ⟨k, rfl⟩ : ∃ k, room' = room + k := ⟨room' - room, by omega⟩
  rcases runProgram_room P room k m body w with h' | ⟨w', h'⟩
  · exact h'.symm
  · exact absurd h' (h w')

/-- Reading never needs more than 13 calls inside each other, whatever the file: with any larger limit it ends in the same way. -/
theorem C64_reading_needs_13 (room : Nat) (hr : 13 ≤ room) (H : Heap) (s : ByteHandler) :
    fromBytes room n!"DatFile" H s = fromBytes 13 n!"DatFile" H s ∧ fromBytes 13 n!"DatFile" H s ≠ .error .recursionError := by
  have h : fromBytes 13 n!"DatFile" H s ≠ .error .recursionError := by
    intro h
    cases hd : DatFile.fromBytes s with
    | error e =>
      rw [(C60_load 13 (Nat.le_refl _) H s).1 e hd] at h
      cases h
      rcases C10_datfile_errors s _ hd with h | h | h | h <;> cases h
    | ok r =>
      obtain ⟨v, N, fp, t, h1, -⟩ := (C60_load 13 (Nat.le_refl _) H s).2 r.1 r.2 hd
      rw [h1] at h
      cases h
  exact ⟨C64_every_function 13 room hr _ _ _ _ H s h, h⟩

/-- Not a statement about nothing: five bytes are read with room for three calls, and not with room for two. -/
example :
    (match fromBytes 3 n!"ResearchResourceCost" [] (ByteHandler.new [1, 0, 255, 255, 1]) with | .ok (_, _, s) => some s.offset | _ => none) = some 5 ∧
    (match fromBytes 2 n!"ResearchResourceCost" [] (ByteHandler.new [1, 0, 255, 255, 1]) with | .error e => some e | _ => none) = some .recursionError := by
  constructor <;> decide +kernel

end Genie.Src
