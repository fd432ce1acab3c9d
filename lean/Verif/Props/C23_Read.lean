import Verif.Props.C23_Sizes
import Verif.Props.C15_Pieces
/-! # C23: how many bytes are read -/

namespace Genie

/-- The NULs after a text. -/
def Item.padding : Item → Bytes → Nat
  | .text s, c => c.length - (4 + utf8Len s)
  | _, _ => 0

theorem Item.Accepts.length {it : Item} {c : Bytes} (h : it.Accepts c) : c.length = it.bytes.length + it.padding c := by
  rcases h with rfl | h
  · cases it <;> simp only [Item.padding, Nat.add_zero]
    simp only [Item.bytes, List.length_append, natLE_length, utf8_length]; omega
  · match it, h with
    | .count w true 0, ⟨h1, h2⟩ => simp [Item.bytes, natLE_length, h1, Item.padding]
    | .float f, ⟨h1, h2, h3⟩ => simp [Item.bytes, bytesOfFloat_length, h1, Item.padding]
    | .packed .f (.float f), ⟨h1, h2, h3⟩ => simp [Item.bytes, bytesOfFloat_length, h1, Item.padding]
    | .text s, ⟨k, h1, h2, h3⟩ =>
      subst h3
      simp only [Item.bytes, Item.padding, List.length_append, natLE_length, utf8_length, List.length_replicate]; omega
    | .slot true, ⟨h1, h2, h3⟩ => simp [Item.bytes, natLE_length, h1, Item.padding]
    | .idle w, ⟨h1, h2⟩ => simp [Item.bytes, h1, Item.padding]

theorem Pieces.flatten_length : {its : List Item} → {cs : List Bytes} → Pieces its cs →
    cs.flatten.length = (layoutBytes its).length + ((its.zip cs).map fun p => p.1.padding p.2).sum
  | [], [], _ => rfl
  | it :: its, c :: cs, ⟨h1, h2⟩ => by
    have ih := h2.flatten_length
    have e := h1.length
    simp only [List.flatten_cons, layoutBytes, List.flatMap_cons, List.length_append, List.zip_cons_cons, List.map_cons, List.sum_cons] at ih ⊢
    omega

/-- A read within the data moves the offset by the size of the record and the NULs that follow its texts. -/
theorem C23_bytes_read (c : RecordClass) (h h' : ByteHandler) (x : c.Obj) (hr : c.fromBytes h = .ok (x, h')) (hw : Within h')
    (cs : List Bytes) (hp : Pieces (c.layout h.version x) cs) (hc : cs.flatten = consumed h h') :
    h'.offset = h.offset + c.size h.version x + (((c.layout h.version x).zip cs).map fun p => p.1.padding p.2).sum := by
  obtain ⟨n, l, rfl, st⟩ := (c.good h.version).ok rfl hr
  obtain ⟨bs, h1, -⟩ := c.rw st.post
  have h2 := C23_record_size c _ x _ h1
  have h3 := hp.flatten_length
  rw [hc, ← ((c.writes h.version x).ok _ h1).2, h2] at h3
  unfold consumed Within at *
  simp only [List.length_take, List.length_drop] at h3 hw ⊢
  omega

/-- The same for a file. -/
theorem C23_file_bytes_read (h h' : ByteHandler) (d : DatFile) (hr : DatFile.fromBytes h = .ok (d, h')) (hw : Within h')
    (cs : List Bytes) (hp : Pieces d.layout cs) (hc : cs.flatten = consumed h h') :
    h'.offset = h.offset + d.size h'.version + ((d.layout.zip cs).map fun p => p.1.padding p.2).sum := by
  obtain ⟨n, l, v, rfl, st⟩ := DatFile.goodFile.ok hr
  obtain ⟨bs, h1, -⟩ := DatFile.reads st.post
  have h2 : bs.length = d.size v := by
    obtain ⟨k1, rfl⟩ := (DatFile.writesAt (versionNames_spec st.post.version).1).ok bs h1
    rw [layoutBytes_length k1, DatFile.sizedAt v d k1]
  have h3 := hp.flatten_length
  rw [hc, ← (d.writes.ok _ h1).2, h2] at h3
  unfold consumed Within at *
  simp only [List.length_take, List.length_drop] at h3 hw ⊢
  omega

/-- In particular at least the size is read. -/
theorem C23_at_least (c : RecordClass) (h h' : ByteHandler) (x : c.Obj) (hr : c.fromBytes h = .ok (x, h')) (hw : Within h') :
    h.offset + c.size h.version x ≤ h'.offset := by
  obtain ⟨cs, h1, h2⟩ := C15_record_items c _ _ _ hr hw
  have := C23_bytes_read c h h' x hr hw cs h1 h2
  omega

-- the effect of `C15_Pieces`: 7 bytes and 2 NULs
example : Genie.Effect.size .VER_88 ⟨[65], []⟩ = 7 ∧
    ((RecordClass.Effect.layout .VER_88 (⟨[65], []⟩ : Effect)).zip [[0x60, 0x0A, 3, 0, 65, 0, 0], [255, 255]]).map (fun p => p.1.padding p.2) = [2, 0] :=
  ⟨by decide +kernel, by decide +kernel⟩

end Genie
