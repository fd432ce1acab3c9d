import Verif.Proof.ClassesCompleted
import Verif.Props.C53_Grammar
import Verif.Props.C28_Truncation
/-!
# C28: what a file that ends too early is read as

Every file that is read past its end is read as the file that is completed: with zeros, after up to three bytes 255 if its last byte is
128 or more (`Completion`, in `Spec/Completed.lean`).  The completed file has the length that was read, and it is a spelling
(`Verif/Spec/Pieces.lean`) of the object returned.
-/

namespace Genie

/-- A file that is read to its end or past it. -/
theorem C28_completed (bs : Bytes) (d : DatFile) (h' : ByteHandler) (hr : DatFile.fromBytes (ByteHandler.new bs) = .ok (d, h'))
    (hp : bs.length ≤ h'.offset) :
    ∃ full, Completion bs full ∧ full.length = h'.offset ∧ d.WF ∧ ReadAs d.layout full ∧
      ∃ h'', DatFile.fromBytes (ByteHandler.new full) = .ok (d, h'') ∧ h''.offset = full.length := by
  obtain ⟨full, v', l', f, rfl, g⟩ := DatFile.fills.full _ _ _ hr
  simp only [ByteHandler.new, List.drop_zero, Nat.zero_add] at f hp
  have hc : Completion bs full := by
    rcases f with f | f
    · rw [f.eq_of_length_le hp]
      exact Completion.refl _
    · exact f
  obtain ⟨l, e⟩ := g (ByteHandler.new full) rfl (by simp [ByteHandler.new])
  have e' : (ByteHandler.new full).offset + full.length = full.length := by simp [ByteHandler.new]
  rw [e'] at e
  obtain ⟨h1, h2⟩ := (C53_whole_file full d).1 ⟨_, e, rfl⟩
  exact ⟨full, hc, by simp [ByteHandler.new], h1, h2, _, e, rfl⟩

/-- The same for every record class, at any place of any content: the bytes that are read are the beginning of the rest of the data, or
they are the completed rest. -/
theorem C28_record_completed (c : RecordClass) (h h' : ByteHandler) (x : c.Obj) (hr : c.fromBytes h = .ok (x, h')) :
    ∃ bs, (bs <+: h.content.drop h.offset ∨ Completion (h.content.drop h.offset) bs) ∧ h'.offset = h.offset + bs.length ∧
      c.WF h.version x ∧ ReadAs (c.layout h.version x) bs ∧
      ∃ h'', c.fromBytes ⟨bs, 0, h.version, false⟩ = .ok (x, h'') ∧ h''.offset = bs.length := by
  obtain ⟨bs, v', l', f, rfl, g⟩ := (RecordClass.fills c).full _ _ _ hr
  obtain ⟨l, e⟩ := g ⟨bs, 0, h.version, false⟩ rfl (by simp)
  have e' : (⟨bs, 0, h.version, false⟩ : ByteHandler).offset + bs.length = bs.length := by simp
  rw [e'] at e
  obtain ⟨h1, -, h2⟩ := (C53_record_grammar c ⟨bs, 0, h.version, false⟩ x bs.length).1 ⟨_, e, by unfold Within; exact Nat.le_refl _, by simp⟩
  refine ⟨bs, f, rfl, h1, ?_, _, e, rfl⟩
  simpa using h2

/-- Data that ends with a byte below 128: zeros after it do not change anything.  The outcome is the same, object or exception, unless it
is a `struct.error` (a float, or a packed record, is cut) that the zeros avoid. -/
theorem C28_zeros (bs : Bytes) (hl : ∀ b, bs.getLast? = some b → b.toNat < 128) (m : Nat) :
    DatFile.ofData bs = .error .structError ∨ DatFile.ofData (bs ++ List.replicate m 0) = DatFile.ofData bs := by
  unfold DatFile.ofData
  rcases DatFile.fills.zeros m (ByteHandler.new bs) (ByteHandler.new (bs ++ List.replicate m 0)) hl ⟨rfl, rfl, rfl⟩ with
    e | ⟨e, e1, e2⟩ | ⟨d, h', g', e1, e2, -⟩
  · exact .inl (by rw [e])
  · exact .inr (by rw [e1, e2])
  · exact .inr (by rw [e1, e2])

/-- The same for every record class. -/
theorem C28_record_zeros (c : RecordClass) (h : ByteHandler) (hl : ∀ b, h.content.getLast? = some b → b.toNat < 128) (m : Nat) :
    c.fromBytes h = .error .structError ∨
    (∃ e, c.fromBytes h = .error e ∧ c.fromBytes { h with content := h.content ++ List.replicate m 0 } = .error e) ∨
    ∃ x h' h'', c.fromBytes h = .ok (x, h') ∧ c.fromBytes { h with content := h.content ++ List.replicate m 0 } = .ok (x, h'') ∧
      h''.offset = h'.offset := by
  rcases (RecordClass.fills c).zeros m h { h with content := h.content ++ List.replicate m 0 } hl ⟨rfl, rfl, rfl⟩ with
    e | ⟨e, e1, e2⟩ | ⟨x, h', g', e1, e2, -, -, h2, -⟩
  · exact .inl e
  · exact .inr (.inl ⟨e, e1, e2⟩)
  · exact .inr (.inr ⟨x, h', g', e1, e2, h2⟩)

/-- So cutting zeros off the end of a file cannot change what it is read as: the shortened file raises a `struct.error`, or it gives
the very same object. -/
theorem C28_zeros_cut (d : DatFile) (hd : d.WF) (bs : Bytes) (m : Nat) (hb : ReadAs d.layout (bs ++ List.replicate m 0))
    (hl : ∀ b, bs.getLast? = some b → b.toNat < 128) : DatFile.ofData bs = .error .structError ∨ DatFile.ofData bs = .ok d := by
  rcases C28_zeros bs hl m with h | h
  · exact .inl h
  · refine .inr (h.symm.trans ?_)
    obtain ⟨h', r, -⟩ := (C53_whole_file _ d).2 ⟨hd, hb⟩
    unfold DatFile.ofData
    rw [r]

/-! ## not vacuous -/

-- a tech tree of which 100 bytes are left is read past its end (see `C28_Truncation.lean`); the last byte of it is 0
example : (resultOf (TechTree.toBytes .VER_88 Sample.techTree)).bind (fun bs =>
      (resultOf (TechTree.fromBytes (ByteHandler.new (bs.take 100)))).map fun r => (decide (100 ≤ r.2.offset), (bs.take 100).getLast?)) =
    some (true, some 0) := by decide +kernel
-- both completions happen: a cut 128 is read as -128, a cut 127 as 127
example : (resultOf (readInt32 true (ByteHandler.new [128]))).map (fun r => (r.1, r.2.offset)) = some (-128, 4) ∧
    (resultOf (readInt32 true (ByteHandler.new [128, 255, 255, 255]))).map (·.1) = some (-128) ∧
    (resultOf (readInt32 true (ByteHandler.new [127]))).map (fun r => (r.1, r.2.offset)) = some (127, 4) := by decide +kernel
-- and a cut float raises, although zeros would complete it
example : errorOf (readFloat (ByteHandler.new [0, 0, 0])) = some .structError ∧
    (resultOf (readFloat (ByteHandler.new [0, 0, 0, 0]))).isSome = true := by decide +kernel

end Genie
