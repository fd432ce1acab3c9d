import Verif.Proof.Records.Special
import Verif.Props.C11_C15_RoundTrip
/-!
# C23, C39: the bytes of a record and how many they are

`c.layout v x` (in `Verif/Spec/Layout.lean`) is the sequence of elementary items of a record, `c.size v x`
(in `Verif/Spec/Sizes.lean`) arithmetic in list and text lengths.
-/

namespace Genie

/-! ## C39: the file format -/

/-- A record can be written exactly if each of its items can; the result is the items' bytes, one after the other. -/
theorem C39_record_format (c : RecordClass) (v : Version) (x : c.Obj) (bs : Bytes) :
    c.toBytes v x = .ok bs ↔ (∀ i ∈ c.layout v x, i.cause = none) ∧ bs = layoutBytes (c.layout v x) := by
  constructor
  · intro h
    have := (c.writes v x).ok bs h
    exact ⟨causes_eq_nil.1 this.1, this.2⟩
  · rintro ⟨h, rfl⟩; exact (c.writes v x).ok_of (causes_eq_nil.2 h)

/-- Otherwise the exception raised is the one that some item calls for. -/
theorem C39_record_error (c : RecordClass) (v : Version) (x : c.Obj) (e : PyErr) (h : c.toBytes v x = .error e) :
    ∃ i ∈ c.layout v x, i.cause = some e := mem_causes.1 ((c.writes v x).error e h)

/-- The same for whole files. -/
theorem C39_datfile_format (d : DatFile) (bs : Bytes) :
    DatFile.toBytes d = .ok bs ↔ (∀ i ∈ d.layout, i.cause = none) ∧ bs = layoutBytes d.layout := by
  constructor
  · intro h
    have := d.writes.ok bs h
    exact ⟨causes_eq_nil.1 this.1, this.2⟩
  · rintro ⟨h, rfl⟩; exact d.writes.ok_of (causes_eq_nil.2 h)

theorem C39_datfile_error (d : DatFile) (e : PyErr) (h : DatFile.toBytes d = .error e) :
    ∃ i ∈ d.layout, i.cause = some e := mem_causes.1 (d.writes.error e h)

/-- What was read from a file has this layout in it: the bytes a clean read consumed are the bytes of the items. -/
theorem C39_read_format (h h' : ByteHandler) (d : DatFile) (hl : h.lossy = false) (hr : DatFile.fromBytes h = .ok (d, h'))
    (hc : h'.lossy = false) : consumed h h' = layoutBytes (d.layoutAt h'.version) := by
  have h1 := (C15_byte_exact_iff_clean h h' d hl hr).2 hc
  have hw := (C13_parsed_wellformed _ _ _ hr).version
  exact ((DatFile.writesAt (versionNames_spec hw).1).ok _ h1).2

/-! ## C23: sizes -/

/-- The number of bytes of a record is the given function of its list and text lengths. -/
theorem C23_record_size (c : RecordClass) (v : Version) (x : c.Obj) (bs : Bytes) (h : c.toBytes v x = .ok bs) :
    bs.length = c.size v x := by
  obtain ⟨h1, rfl⟩ := (c.writes v x).ok bs h
  rw [layoutBytes_length h1, c.sized v x h1]

/-- These classes always take the same number of bytes. -/
theorem C23_constant_size (c : RecordClass) (n : Nat) (hn : c.constantSize = some n) (v : Version) (x : c.Obj) (bs : Bytes)
    (h : c.toBytes v x = .ok bs) : bs.length = n := by
  rw [C23_record_size c v x bs h]
  cases c <;> simp only [RecordClass.constantSize, Option.some.injEq, reduceCtorEq] at hn <;> (subst hn; rfl)

/-- The size of a file of version `v`. -/
theorem C23_datfile_size (v : Version) (d : DatFile) (bs : Bytes) (hv : d.version = v.value) (h : DatFile.toBytes d = .ok bs) :
    bs.length = d.size v := by
  have : Version.ofStr d.version = .ok v := by rw [hv]; cases v <;> rfl
  obtain ⟨h1, rfl⟩ := (DatFile.writesAt this).ok bs h
  rw [layoutBytes_length h1, DatFile.sizedAt v d h1]

/-- A clean read moves the offset by the size of the record. -/
theorem C23_read_size (c : RecordClass) (h h' : ByteHandler) (x : c.Obj) (hl : h.lossy = false)
    (hr : c.fromBytes h = .ok (x, h')) (hc : h'.lossy = false) (hw : Within h') :
    h'.offset = h.offset + c.size h.version x := by
  have h1 := (C15_record_byte_exact_iff_clean c h h' x hl hr).2 hc
  have h2 := C23_record_size c _ x _ h1
  obtain ⟨n, l, rfl, st⟩ := (c.good h.version).ok rfl hr
  unfold consumed Within at *
  simp only [List.length_take, List.length_drop] at h2 hw ⊢
  omega

/-- 17 classes have a constant size, among them these. -/
example : RecordClass.constantSize .EffectCommand = some 11 ∧ RecordClass.constantSize .PlayerColour = some 36 ∧
    RecordClass.constantSize .DeadFish = some 41 ∧ RecordClass.constantSize .ResearchLocation = some 9 := ⟨rfl, rfl, rfl, rfl⟩

/-- A unit of each version, written and measured. -/
example : ((resultOf (Unit.toBytes .VER_88 (Sample.archer .VER_88))).map List.length) = some (Unit.size .VER_88 (Sample.archer .VER_88)) ∧
    ((resultOf (Unit.toBytes .VER_84 (Sample.archer .VER_84))).map List.length) = some (Unit.size .VER_84 (Sample.archer .VER_84)) := by
  decide +kernel

end Genie
