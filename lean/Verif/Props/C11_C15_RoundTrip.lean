import Verif.Proof.Readers
import Verif.Proof.SamplesWF
/-!
# C11 – C15, C22: writing then reading, reading then writing

`c.WF v x` / `DatFile.WFAt v d` (in `Verif/Spec/Records.lean`, `Verif/Spec/Versioned.lean`) are the explicit
field ranges and list lengths; `ReadsBackAs`, `consumed` are in `Verif/Spec/Api.lean`.
-/

namespace Genie

/-! ## C11: every record class -/

/-- A well-formed object can be written, and wherever its bytes occur they are read back as the same object,
consuming exactly these bytes. -/
theorem C11_record_round_trip (c : RecordClass) (v : Version) (x : c.Obj) (hx : c.WF v x) :
    ∃ bs, c.toBytes v x = .ok bs ∧ ReadsBackAs v c.fromBytes bs x :=
  (c.rw hx).readsBackAs

/-- Every class has such objects, at every version. -/
example (c : RecordClass) (v : Version) (hv : v ≠ .UNDEFINED) : c.WF v (Sample.ofClass v c) := Sample.wf v hv c

/-! ## C12: whole files -/

/-- A well-formed file object can be written; wherever its bytes occur, `DatFile.from_bytes` reads them back as the
same object, consuming exactly these bytes and setting the version. -/
theorem C12_datfile_round_trip (v : Version) (d : DatFile) (hd : DatFile.WFAt v d) :
    ∃ bs, DatFile.toBytes d = .ok bs ∧
      ∀ (pre post : Bytes) (v0 : Version) (l : Bool),
        DatFile.fromBytes { content := pre ++ bs ++ post, offset := pre.length, version := v0, lossy := l } =
          .ok (d, { content := pre ++ bs ++ post, offset := pre.length + bs.length, version := v, lossy := l }) := by
  obtain ⟨bs, h1, h2⟩ := DatFile.reads hd
  refine ⟨bs, h1, fun pre post v0 l => ?_⟩
  rw [h2 _ ⟨post, by simp⟩]

/-- From the start of a file, also if other bytes follow. -/
theorem C12_datfile_round_trip_file (d : DatFile) (hd : DatFile.WF d) :
    ∃ bs, DatFile.toBytes d = .ok bs ∧
      ∀ post, ∃ h', DatFile.fromBytes (ByteHandler.new (bs ++ post)) = .ok (d, h') ∧ h'.offset = bs.length := by
  obtain ⟨v, hv⟩ := hd
  obtain ⟨bs, h1, h2⟩ := DatFile.reads hv
  refine ⟨bs, h1, fun post => ⟨_, h2 _ ?_, ?_⟩⟩
  · exact ⟨post, rfl⟩
  · simp [ByteHandler.new]

/-- There are well-formed files of every version. -/
example (v : Version) (hv : v ≠ .UNDEFINED) : DatFile.WFAt v (Sample.datFile v) := Sample.datFile_wf v hv

/-! ## C13: exactly the well-formed objects round trip -/

/-- Everything a parse returns is well-formed, at the version it found. -/
theorem C13_parsed_wellformed (h h' : ByteHandler) (d : DatFile) (hr : DatFile.fromBytes h = .ok (d, h')) :
    DatFile.WFAt h'.version d := by
  obtain ⟨n, l, v, rfl, st⟩ := DatFile.goodFile.ok hr
  exact st.post

/-- The same for every record class. -/
theorem C13_record_parsed_wellformed (c : RecordClass) (h h' : ByteHandler) (x : c.Obj)
    (hr : c.fromBytes h = .ok (x, h')) : c.WF h.version x := by
  obtain ⟨n, l, rfl, st⟩ := (c.good h.version).ok rfl hr
  exact st.post

/-- If a file object can be written, parsing the output returns an equal object exactly if it is well-formed. -/
theorem C13_round_trips_iff (d : DatFile) (bs : Bytes) (hw : DatFile.toBytes d = .ok bs) :
    (∃ h', DatFile.fromBytes (ByteHandler.new bs) = .ok (d, h')) ↔ DatFile.WF d := by
  constructor
  · rintro ⟨h', hr⟩; exact ⟨_, C13_parsed_wellformed _ _ _ hr⟩
  · intro hd
    obtain ⟨bs', h1, h2⟩ := C12_datfile_round_trip_file d hd
    rw [hw] at h1
    simp only [Except.ok.injEq] at h1
    subst h1
    obtain ⟨h', h3, -⟩ := h2 []
    exact ⟨h', by simpa using h3⟩

/-- The same for every record class. -/
theorem C13_record_round_trips_iff (c : RecordClass) (v : Version) (x : c.Obj) (bs : Bytes)
    (hw : c.toBytes v x = .ok bs) :
    (∃ h', c.fromBytes { ByteHandler.new bs with version := v } = .ok (x, h')) ↔ c.WF v x := by
  constructor
  · rintro ⟨h', hr⟩; exact C13_record_parsed_wellformed c _ _ _ hr
  · intro hx
    obtain ⟨bs', h1, h2⟩ := C11_record_round_trip c v x hx
    rw [hw] at h1
    simp only [Except.ok.injEq] at h1
    subst h1
    have := h2 [] [] false
    simp only [List.nil_append, List.append_nil] at this
    exact ⟨_, this⟩

/-- An object that can be written but is not well-formed (an 8.4 tech with two research locations) comes back
changed. -/
example :
    let t := { Sample.tech with research_locations := [Sample.researchLocation, default] }
    (resultOf (Tech.toBytes .VER_84 t)).isSome = true ∧ ¬ Tech.WF .VER_84 t := by decide +kernel

/-! ## C14: what was parsed can be saved -/

/-- A parsed file can be written again, and the output parses to the same object. -/
theorem C14_parsed_can_be_saved (h h' : ByteHandler) (d : DatFile) (hr : DatFile.fromBytes h = .ok (d, h')) :
    ∃ bs, DatFile.toBytes d = .ok bs ∧ ∃ h2, DatFile.fromBytes (ByteHandler.new bs) = .ok (d, h2) := by
  obtain ⟨bs, h1, h2⟩ := C12_datfile_round_trip_file d ⟨_, C13_parsed_wellformed _ _ _ hr⟩
  obtain ⟨h3, h4, -⟩ := h2 []
  exact ⟨bs, h1, h3, by simpa using h4⟩

/-- The same for every record class. -/
theorem C14_record_parsed_can_be_saved (c : RecordClass) (h h' : ByteHandler) (x : c.Obj)
    (hr : c.fromBytes h = .ok (x, h')) :
    ∃ bs, c.toBytes h.version x = .ok bs ∧ ReadsBackAs h.version c.fromBytes bs x :=
  C11_record_round_trip c _ x (C13_record_parsed_wellformed c _ _ _ hr)

/-- Load a file and write it again. -/
def resave (bs : Bytes) : Py Bytes :=
  match DatFile.fromBytes (ByteHandler.new bs) with
  | .error e => .error e
  | .ok (d, _) => DatFile.toBytes d

/-- If the file loads, it can be written. -/
theorem C14_resave_total (bs : Bytes) (d : DatFile) (h' : ByteHandler)
    (hr : DatFile.fromBytes (ByteHandler.new bs) = .ok (d, h')) : Succeeds (resave bs) := by
  obtain ⟨b1, h1, -⟩ := C14_parsed_can_be_saved _ _ _ hr
  exact ⟨b1, by unfold resave; rw [hr]; exact h1⟩

/-- Loading and writing is idempotent: the second time changes nothing. -/
theorem C14_resave_idempotent (bs b1 : Bytes) (h : resave bs = .ok b1) : resave b1 = .ok b1 := by
  unfold resave at h
  split at h
  · simp at h
  · rename_i d h' hr
    obtain ⟨b2, h1, h3, h4⟩ := C14_parsed_can_be_saved _ _ _ hr
    rw [h] at h1
    simp only [Except.ok.injEq] at h1
    subst h1
    unfold resave; rw [h4]; exact h

/-! ## C15: when re-encoding is byte-exact -/

/-- Re-encoding a parsed file gives exactly the bytes consumed if and only if the reader met nothing it cannot
reproduce (`lossy`, see `Verif/Model/Common.lean`). -/
theorem C15_byte_exact_iff_clean (h h' : ByteHandler) (d : DatFile) (hl : h.lossy = false)
    (hr : DatFile.fromBytes h = .ok (d, h')) :
    DatFile.toBytes d = .ok (consumed h h') ↔ h'.lossy = false := by
  obtain ⟨n, l, v, rfl, st⟩ := DatFile.goodFile.ok hr
  unfold consumed
  simp only [hl, Bool.false_or, Nat.add_sub_cancel_left]
  constructor
  · intro hw
    obtain ⟨bs, h1, h2⟩ := DatFile.reads st.post
    rw [hw] at h1
    simp only [Except.ok.injEq] at h1
    subst h1
    have h3 := h2 h (List.take_prefix _ _)
    rw [hr] at h3
    simp only [Except.ok.injEq, Prod.mk.injEq, ByteHandler.mk.injEq, hl, Bool.false_or] at h3
    exact h3.2.2.2.2
  · exact st.exact_

/-- The same for every record class. -/
theorem C15_record_byte_exact_iff_clean (c : RecordClass) (h h' : ByteHandler) (x : c.Obj) (hl : h.lossy = false)
    (hr : c.fromBytes h = .ok (x, h')) :
    c.toBytes h.version x = .ok (consumed h h') ↔ h'.lossy = false := by
  obtain ⟨n, l, rfl, st⟩ := (c.good h.version).ok rfl hr
  unfold consumed
  simp only [hl, Bool.false_or, Nat.add_sub_cancel_left]
  constructor
  · intro hw
    obtain ⟨bs, h1, h2⟩ := c.rw st.post
    rw [hw] at h1
    simp only [Except.ok.injEq] at h1
    subst h1
    have h3 := h2 h rfl (List.take_prefix _ _)
    rw [hr] at h3
    simp only [Except.ok.injEq, Prod.mk.injEq, ByteHandler.mk.injEq, hl, Bool.false_or] at h3
    exact h3.2.2.2.2
  · exact st.exact_

/-- A clean read stays within the data. -/
theorem C15_clean_within (h h' : ByteHandler) (d : DatFile) (hr : DatFile.fromBytes h = .ok (d, h'))
    (hc : h'.lossy = false) : Within h' := by
  obtain ⟨n, l, v, rfl, st⟩ := DatFile.goodFile.ok hr
  unfold Within
  simp only
  refine Nat.le_of_not_lt fun ho => ?_
  have := st.over ho
  simp [this] at hc

/-! ## C22: encodings are injective and prefix-free -/

/-- Two encodings of the same class and version, each followed by anything: if the bytes agree, so do the objects
and what follows. -/
theorem C22_unambiguous (c : RecordClass) (v : Version) (x y : c.Obj) (hx : c.WF v x) (hy : c.WF v y)
    (bx by_ rx ry : Bytes) (ex : c.toBytes v x = .ok bx) (ey : c.toBytes v y = .ok by_)
    (he : bx ++ rx = by_ ++ ry) : x = y ∧ rx = ry := by
  obtain ⟨b1, h1, r1⟩ := C11_record_round_trip c v x hx
  obtain ⟨b2, h2, r2⟩ := C11_record_round_trip c v y hy
  rw [ex] at h1; rw [ey] at h2
  simp only [Except.ok.injEq] at h1 h2
  subst h1; subst h2
  have q1 := r1 [] rx false
  have q2 := r2 [] ry false
  simp only [List.nil_append] at q1 q2
  rw [he, q2] at q1
  simp only [Except.ok.injEq, Prod.mk.injEq, ByteHandler.mk.injEq, List.length_nil, Nat.zero_add] at q1
  have h3 : y = x := q1.1
  refine ⟨h3.symm, ?_⟩
  subst h3
  rw [ex] at ey
  simp only [Except.ok.injEq] at ey
  subst ey
  exact List.append_cancel_left he

/-- No encoding is a proper prefix of another one. -/
theorem C22_prefix_free (c : RecordClass) (v : Version) (x y : c.Obj) (hx : c.WF v x) (hy : c.WF v y)
    (bx by_ : Bytes) (ex : c.toBytes v x = .ok bx) (ey : c.toBytes v y = .ok by_) (hp : bx <+: by_) :
    x = y ∧ bx = by_ := by
  obtain ⟨t, ht⟩ := hp
  obtain ⟨h1, h2⟩ := C22_unambiguous c v x y hx hy bx by_ t [] ex ey (by rw [ht]; simp)
  refine ⟨h1, ?_⟩
  rw [← ht, h2]; simp

/-- A sequence of records, concatenated, determines the records. -/
theorem C22_sequences (c : RecordClass) (v : Version) (xs ys : List c.Obj) (hx : ∀ x ∈ xs, c.WF v x)
    (hy : ∀ y ∈ ys, c.WF v y) (hlen : xs.length = ys.length)
    (he : joinB (xs.map (c.toBytes v)) = joinB (ys.map (c.toBytes v))) : xs = ys := by
  have key : ∀ (xs ys : List c.Obj) (ra rb : Bytes), (∀ x ∈ xs, c.WF v x) → (∀ y ∈ ys, c.WF v y) →
      xs.length = ys.length → (∀ a b, joinB (xs.map (c.toBytes v)) = .ok a → joinB (ys.map (c.toBytes v)) = .ok b →
        a ++ ra = b ++ rb → xs = ys) := by
    intro xs
    induction xs with
    | nil => intro ys ra rb _ _ hl _ _ _ _ _; exact (List.length_eq_zero_iff.1 hl.symm).symm
    | cons x xs ih =>
      intro ys ra rb hx hy hl a b ha hb hab
      cases ys with
      | nil => simp at hl
      | cons y ys =>
        simp only [List.map_cons] at ha hb
        obtain ⟨a1, a2, e1, e2, rfl⟩ := joinB_cons_eq_ok.1 ha
        obtain ⟨b1, b2, f1, f2, rfl⟩ := joinB_cons_eq_ok.1 hb
        obtain ⟨rfl, h2⟩ := C22_unambiguous c v x y (hx _ (by simp)) (hy _ (by simp)) a1 b1 (a2 ++ ra) (b2 ++ rb) e1 f1
          (by simpa using hab)
        rw [ih ys ra rb (fun z hz => hx z (by simp [hz])) (fun z hz => hy z (by simp [hz])) (by simpa using hl)
          a2 b2 e2 f2 h2]
  have ok : ∀ xs : List c.Obj, (∀ x ∈ xs, c.WF v x) → ∃ a, joinB (xs.map (c.toBytes v)) = .ok a := by
    intro xs
    induction xs with
    | nil => intro _; exact ⟨[], rfl⟩
    | cons x xs ih =>
      intro hx
      obtain ⟨a, ha⟩ := ih (fun z hz => hx z (by simp [hz]))
      obtain ⟨b, hb, -⟩ := c.rw (hx x (by simp))
      exact ⟨b ++ a, joinB_cons_ok hb ha⟩
  obtain ⟨a, ha⟩ := ok xs hx
  exact key xs ys [] [] hx hy hlen a a ha (he ▸ ha) rfl

/-- Two well-formed files, each followed by anything: if the bytes agree, so do the objects. -/
theorem C22_datfile_unambiguous (d e : DatFile) (hd : DatFile.WF d) (he : DatFile.WF e) (bd be rd re : Bytes)
    (ed : DatFile.toBytes d = .ok bd) (ee : DatFile.toBytes e = .ok be) (hb : bd ++ rd = be ++ re) :
    d = e ∧ rd = re := by
  obtain ⟨b1, h1, r1⟩ := C12_datfile_round_trip_file d hd
  obtain ⟨b2, h2, r2⟩ := C12_datfile_round_trip_file e he
  rw [ed] at h1; rw [ee] at h2
  simp only [Except.ok.injEq] at h1 h2
  subst h1; subst h2
  obtain ⟨k1, q1, -⟩ := r1 rd
  obtain ⟨k2, q2, -⟩ := r2 re
  rw [hb, q2] at q1
  simp only [Except.ok.injEq, Prod.mk.injEq] at q1
  have h3 := q1.1
  subst h3
  refine ⟨rfl, ?_⟩
  rw [ed] at ee
  simp only [Except.ok.injEq] at ee
  subst ee
  exact List.append_cancel_left hb

/-- Well-formedness is needed: two different 8.4 techs with the same encoding. -/
example :
    let t1 := { Sample.tech with research_locations := [] }
    let t2 := { Sample.tech with research_locations := [⟨-1, 0, 0, -1⟩] }
    t1 ≠ t2 ∧ resultOf (Tech.toBytes .VER_84 t1) = resultOf (Tech.toBytes .VER_84 t2) ∧
      (resultOf (Tech.toBytes .VER_84 t1)).isSome = true := by decide +kernel

end Genie
