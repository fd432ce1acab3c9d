import Verif.Proof.Readers
/-!
# C08 – C10: what every reader does to the handler, what it depends on, what it may raise

`RecordClass` is the table of all record classes, `Primitive` the table of the primitive `read_*` methods.
-/

namespace Genie

/-! ## C08: cursor discipline -/

/-- Every primitive read leaves content and version alone and moves the offset forwards. -/
theorem C08_primitive_cursor (p : Primitive) (h h' : ByteHandler) (a : p.Ret) (hr : p.read h = .ok (a, h')) :
    ∃ n, MovedBy n h h' := by
  obtain ⟨n, l, rfl, -⟩ := (p.good h.version).ok rfl hr
  exact ⟨n, rfl, rfl, rfl⟩

/-- So does `from_bytes` of every record class. -/
theorem C08_record_cursor (c : RecordClass) (h h' : ByteHandler) (a : c.Obj) (hr : c.fromBytes h = .ok (a, h')) :
    ∃ n, MovedBy n h h' := by
  obtain ⟨n, l, rfl, -⟩ := (c.good h.version).ok rfl hr
  exact ⟨n, rfl, rfl, rfl⟩

/-- `DatFile.from_bytes` sets the version, to the one its header names; otherwise it behaves alike. -/
theorem C08_datfile_cursor (h h' : ByteHandler) (d : DatFile) (hr : DatFile.fromBytes h = .ok (d, h')) :
    h'.content = h.content ∧ h.offset ≤ h'.offset ∧ (d.version, h'.version) ∈ versionNames := by
  obtain ⟨n, l, v, rfl, st⟩ := DatFile.goodFile.ok hr
  exact ⟨rfl, Nat.le_add_right _ _, st.post.version⟩

/-! ## C09: readers depend only on the bytes they consume -/

theorem Good.local_ {v : Version} {r : Reader α} {Q : α → Prop} {P : α → Bytes → Prop} (g : Good v r Q P)
    {h h' h2 : ByteHandler} {a : α} (hv : h.version = v) (hr : r h = .ok (a, h')) (hw : Within h')
    (h2v : h2.version = h.version) (hb : consumed h h' <+: h2.content.drop h2.offset) :
    ∃ h2', r h2 = .ok (a, h2') ∧ MovedBy (h'.offset - h.offset) h2 h2' := by
  obtain ⟨n, l, rfl, st⟩ := g.ok hv hr
  unfold Within at hw
  unfold consumed at hb
  simp only [Nat.add_sub_cancel_left] at hw hb ⊢
  exact ⟨_, st.frame hw h2 (h2v.trans hv) hb, rfl, rfl, rfl⟩

/-- A primitive read that stays within the data returns the same value wherever the bytes it consumed
occur, and consumes as many bytes there. -/
theorem C09_primitive_local (p : Primitive) (h h' : ByteHandler) (a : p.Ret) (hr : p.read h = .ok (a, h'))
    (hw : Within h') (h2 : ByteHandler) (hv : h2.version = h.version)
    (hb : consumed h h' <+: h2.content.drop h2.offset) :
    ∃ h2', p.read h2 = .ok (a, h2') ∧ MovedBy (h'.offset - h.offset) h2 h2' :=
  (p.good h.version).local_ rfl hr hw hv hb

/-- The same for `from_bytes` of every record class. -/
theorem C09_record_local (c : RecordClass) (h h' : ByteHandler) (a : c.Obj) (hr : c.fromBytes h = .ok (a, h'))
    (hw : Within h') (h2 : ByteHandler) (hv : h2.version = h.version)
    (hb : consumed h h' <+: h2.content.drop h2.offset) :
    ∃ h2', c.fromBytes h2 = .ok (a, h2') ∧ MovedBy (h'.offset - h.offset) h2 h2' :=
  (c.good h.version).local_ rfl hr hw hv hb

/-- The same for `DatFile.from_bytes`, whatever the version of the handlers. -/
theorem C09_datfile_local (h h' : ByteHandler) (d : DatFile) (hr : DatFile.fromBytes h = .ok (d, h'))
    (hw : Within h') (h2 : ByteHandler) (hb : consumed h h' <+: h2.content.drop h2.offset) :
    ∃ h2', DatFile.fromBytes h2 = .ok (d, h2') ∧ h2'.content = h2.content ∧
      h2'.offset = h2.offset + (h'.offset - h.offset) ∧ h2'.version = h'.version := by
  obtain ⟨n, l, v, rfl, st⟩ := DatFile.goodFile.ok hr
  unfold Within at hw
  unfold consumed at hb
  simp only [Nat.add_sub_cancel_left] at hw hb ⊢
  exact ⟨_, st.frame hw h2 hb, rfl, rfl, rfl⟩

/-- In particular bytes appended to a complete file do not change what is read. -/
theorem C09_datfile_append (bs extra : Bytes) (d : DatFile) (h' : ByteHandler)
    (hr : DatFile.fromBytes (ByteHandler.new bs) = .ok (d, h')) (hw : Within h') :
    ∃ h2', DatFile.fromBytes (ByteHandler.new (bs ++ extra)) = .ok (d, h2') ∧ h2'.offset = h'.offset := by
  obtain ⟨h2', h1, h2, h3, h4⟩ := C09_datfile_local _ _ _ hr hw (ByteHandler.new (bs ++ extra)) (by
    unfold consumed ByteHandler.new
    simp only [List.drop_zero, Nat.sub_zero]
    exact (List.take_prefix _ _).trans (List.prefix_append _ _))
  refine ⟨h2', h1, ?_⟩
  rw [h3]; simp [ByteHandler.new]

/-! ## C10: only documented exceptions escape a parse -/

/-- `DatFile.from_bytes` on any handler: a result, or one of four exceptions. -/
theorem C10_datfile_errors (h : ByteHandler) (e : PyErr) (hr : DatFile.fromBytes h = .error e) :
    e = .structError ∨ e = .assertionError ∨ e = .unicodeDecodeError ∨ e = .valueError := by
  rcases DatFile.goodFile h with ⟨e', he, hp⟩ | ⟨a, n, l, v, ha, -⟩
  · rw [hr] at he
    simp only [Except.error.injEq] at he
    subst he
    rcases hp with (h | h | h) | ⟨h, -⟩ <;> simp [h]
  · rw [hr] at ha; simp at ha

/-- Record classes raise no `ValueError`. -/
theorem C10_record_errors (c : RecordClass) (h : ByteHandler) (e : PyErr) (hr : c.fromBytes h = .error e) :
    e = .structError ∨ e = .assertionError ∨ e = .unicodeDecodeError := by
  rcases c.good h.version h rfl with ⟨e', he, hp⟩ | ⟨a, n, l, ha, -⟩
  · rw [hr] at he
    simp only [Except.error.injEq] at he
    subst he
    exact hp
  · rw [hr] at ha; simp at ha

/-- A `ValueError` comes from the version header and from nothing else. -/
theorem C10_datfile_value_error (h : ByteHandler) (s : PyStr) (v : Version)
    (hs : String_from_bytes ((h.content.drop h.offset).take 8) = .ok s) (hv : Version.ofStr s = .ok v) :
    DatFile.fromBytes h ≠ .error .valueError := by
  intro hr
  rcases DatFile.goodFile h with ⟨e, he, hp⟩ | ⟨a, n, l, w, ha, -⟩
  · rw [hr] at he
    simp only [Except.error.injEq] at he
    subst he
    rcases hp with (h | h | h) | ⟨-, s', h1, h2⟩
    · simp at h
    · simp at h
    · simp at h
    · rw [hs] at h1
      simp only [Except.ok.injEq] at h1
      subst h1
      rw [hv] at h2; simp at h2
  · rw [hr] at ha; simp at ha

-- all four do occur
example : errorOf (DatFile.fromBytes (ByteHandler.new [])) = some .valueError := by decide +kernel
example : errorOf (DatFile.fromBytes (ByteHandler.new [0xFF])) = some .unicodeDecodeError := by decide +kernel
-- "VER 8.8\0", one terrain restriction with one terrain: the float table is cut short
example : errorOf (DatFile.fromBytes (ByteHandler.new ([86, 69, 82, 32, 56, 46, 56, 0] ++ [1, 0] ++ [1, 0]))) =
    some .structError := by decide +kernel
-- no restriction, colour or sound, one graphic: its name has no marker
example : errorOf (DatFile.fromBytes (ByteHandler.new ([86, 69, 82, 32, 56, 46, 56, 0] ++ [0, 0] ++ [0, 0] ++
    [0, 0] ++ [0, 0] ++ [1, 0] ++ [1, 0, 0, 0]))) = some .assertionError := by decide +kernel

end Genie
