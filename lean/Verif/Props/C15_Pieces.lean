import Verif.Props.C15_Anomalies
import Verif.Proof.PiecesExact
import Verif.Proof.ClassesLax
import Verif.Proof.Records.Sizes
/-!
# C15, without the ghost flag: the file, item by item

`Spec/Layout.lean` lists the items of every class in the order of the file format; `Spec/Pieces.lean` says which bytes are
accepted for an item: the bytes that would be written for it, and five oddities (`Item.Odd`).  A file that is read without
running past its end is a sequence of accepted chunks for exactly these items, and it is reproduced byte for byte exactly if
no chunk is odd.
-/

namespace Genie

theorem DatFile.layout_eq_layoutAt {d : DatFile} {v : Version} (h : (d.version, v) ∈ versionNames) : d.layout = d.layoutAt v := by
  have h1 := (versionNames_spec h).1
  rw [ofStr_eq] at h1
  unfold DatFile.layout
  cases hl : writableVersions.lookup d.version with
  | none => rw [hl] at h1; cases h1
  | some w => rw [hl] at h1; cases h1; rfl

theorem DatFile.toBytes_length_ge {d : DatFile} {v : Version} {bs : Bytes} (hv : (d.version, v) ∈ versionNames)
    (h : d.toBytes = .ok bs) : 8 ≤ bs.length := by
  rw [((DatFile.writes d).ok _ h).2, DatFile.layout_eq_layoutAt hv]
  rw [DatFile.layoutAt, List.flatten_cons, List.flatten_cons, List.flatten_cons]
  generalize List.flatten _ = rest
  simp only [layoutBytes_append, List.length_append]
  have : 8 ≤ (layoutBytes [.fixedText 8 d.version]).length := by
    simp only [layoutBytes, List.flatMap_cons, List.flatMap_nil, List.append_nil, Item.bytes, List.length_append, utf8_length,
      List.length_replicate]
    simp only [show ¬ (8 : Nat) = 0 by omega, if_false]; omega
  omega

/-- A file read without running past its end consists of one accepted chunk for each item of the result. -/
theorem C15_file_items (h h' : ByteHandler) (d : DatFile) (hr : DatFile.fromBytes h = .ok (d, h')) (hw : Within h') :
    ReadAs d.layout (consumed h h') := by
  obtain ⟨h1, h2, h3⟩ := DatFile.taken hr
  have hc : h'.content = h.content := by
    obtain ⟨_, _, _, rfl, _⟩ := DatFile.goodFile.ok hr
    rfl
  rw [DatFile.layout_eq_layoutAt h1]
  refine h3.readAs ?_
  unfold Within at hw
  rw [List.length_drop]; rw [hc] at hw; omega

/-- Likewise for every record class. -/
theorem C15_record_items (c : RecordClass) (h h' : ByteHandler) (x : c.Obj) (hr : c.fromBytes h = .ok (x, h'))
    (hw : Within h') : ReadAs (c.layout h.version x) (consumed h h') := by
  obtain ⟨h1, h3⟩ := (c.lax h.version).taken rfl hr
  have hc : h'.content = h.content := (c.lax h.version h rfl x h' hr).2.1
  refine h3.readAs ?_
  unfold Within at hw
  rw [List.length_drop]; rw [hc] at hw; omega

/-- Saving what was read gives the bytes that were read exactly if nothing was read past the end of the data and no chunk is
odd. -/
theorem C15_file_exact_iff_no_odd (h h' : ByteHandler) (d : DatFile) (hr : DatFile.fromBytes h = .ok (d, h')) :
    DatFile.toBytes d = .ok (consumed h h') ↔
      Within h' ∧ ∃ cs, Pieces d.layout cs ∧ cs.flatten = consumed h h' ∧ ∀ p ∈ d.layout.zip cs, ¬ p.1.Odd p.2 := by
  obtain ⟨n, l, v, rfl, st⟩ := DatFile.goodFile.ok hr
  obtain ⟨bs, h1, h2⟩ := DatFile.reads st.post
  have hb := ((DatFile.writes d).ok _ h1).2
  rw [h1]
  constructor
  · intro he
    have he := Except.ok.inj he
    have h3 := h2 h (by rw [he]; exact List.take_prefix _ _)
    rw [hr] at h3
    have h4 := congrArg (fun q => q.2.offset) (Except.ok.inj h3)
    have h0 := congrArg List.length he
    simp only [consumed, Nat.add_sub_cancel_left, List.length_take, List.length_drop] at h4 h0
    have h8 : 8 ≤ bs.length := DatFile.toBytes_length_ge st.post.version h1
    have hw : Within { h with offset := h.offset + n, version := v, lossy := h.lossy || l } := by
      unfold Within; simp only; omega
    obtain ⟨cs, p1, p2⟩ := C15_file_items _ _ _ hr hw
    exact ⟨hw, cs, p1, p2, p1.exact_iff.1 (by rw [p2, ← hb, he])⟩
  · rintro ⟨-, cs, p1, p2, p3⟩
    rw [hb, ← p1.exact_iff.2 p3, p2]

/-- However the data read is divided into accepted chunks: it is reproduced exactly if none of them is odd. -/
theorem C15_file_exact_iff_pieces (h h' : ByteHandler) (d : DatFile) (hr : DatFile.fromBytes h = .ok (d, h'))
    (cs : List Bytes) (hp : Pieces d.layout cs) (hc : cs.flatten = consumed h h') :
    DatFile.toBytes d = .ok (consumed h h') ↔ ∀ p ∈ d.layout.zip cs, ¬ p.1.Odd p.2 := by
  obtain ⟨bs, h1, -⟩ := DatFile.reads (C13_parsed_wellformed _ _ _ hr)
  rw [h1, ((DatFile.writes d).ok _ h1).2, ← hp.exact_iff, hc]
  exact ⟨fun h => (Except.ok.inj h).symm, fun h => by rw [h]⟩

/-- Likewise for every record class. -/
theorem C15_record_exact_iff_pieces (c : RecordClass) (h h' : ByteHandler) (x : c.Obj) (hr : c.fromBytes h = .ok (x, h'))
    (cs : List Bytes) (hp : Pieces (c.layout h.version x) cs) (hc : cs.flatten = consumed h h') :
    c.toBytes h.version x = .ok (consumed h h') ↔ ∀ p ∈ (c.layout h.version x).zip cs, ¬ p.1.Odd p.2 := by
  obtain ⟨n, l, -, st⟩ := (c.good h.version).ok rfl hr
  obtain ⟨bs, h1, -⟩ := c.rw st.post
  rw [h1, ((c.writes h.version x).ok _ h1).2, ← hp.exact_iff, hc]
  exact ⟨fun h => (Except.ok.inj h).symm, fun h => by rw [h]⟩

/-! ## not vacuous -/

-- an effect named "A" without commands, whose name is padded with two NULs and whose count is -1: two odd chunks
example : Pieces (RecordClass.Effect.layout .VER_88 (⟨[65], []⟩ : Effect)) [[0x60, 0x0A, 3, 0, 65, 0, 0], [255, 255]] :=
  ⟨.inr ⟨2, by decide, by decide, by decide⟩, .inr ⟨rfl, by decide⟩, trivial⟩
example : (RecordClass.Effect.layout .VER_88 (⟨[65], []⟩ : Effect)).zip [[0x60, 0x0A, 3, 0, 65, 0, 0], [255, 255]] =
    [(.text [65], [0x60, 0x0A, 3, 0, 65, 0, 0]), (.count 2 true 0, [255, 255])] := rfl
-- it is read as that effect
example : (resultOf (RecordClass.Effect.fromBytes { ByteHandler.new [0x60, 0x0A, 3, 0, 65, 0, 0, 255, 255] with
    version := .VER_88 })).map (fun r => (r.1, r.2.offset)) = some ((⟨[65], []⟩ : Effect), 9) := by decide +kernel
-- and the same effect, as it is written
example : Pieces (RecordClass.Effect.layout .VER_88 (⟨[65], []⟩ : Effect)) [[0x60, 0x0A, 1, 0, 65], [0, 0]] :=
  ⟨.inl rfl, .inl rfl, trivial⟩

end Genie
