import Verif.Proof.Source.EveryClass
import Verif.Props.C68_SourceGuarantees
import Verif.Props.C36_C37_Errors
/-!
# C69: every record class, from the source

C08 to C11, C14, C22 and C54 for `from_bytes` and `to_bytes` of every record class, stated like C68 without any model of their code: executions of the source of
both, values of objects, and bytes.
-/

namespace Genie.Src

/-- A `ByteHandler` with this content, offset and version. -/
def handlerAt (content : Bytes) (n : Nat) (v : Version) : ByteHandler := { content := content, offset := n, version := v, lossy := false }

/-- Executing the reader of the class (`readCall`: `from_bytes`, or `from_bytes_with_count` for terrain restrictions) on a handler with this content, offset and version,
when the objects `H` exist, returns `o`, after which the objects `H'` exist and the offset is `m`; content and version stay. -/
def ReadsObject (room : Nat) (c : RecordClass) (H : Heap) (content : Bytes) (n : Nat) (v : Version) (o : HVal) (H' : Heap) (m : Nat) : Prop :=
  ∃ t, readCall room c H (handlerAt content n v) = .ok (.h o, H', t) ∧ t.content = content ∧ t.offset = m ∧ t.version = v

/-- It raises `e`. -/
def RefusesObject (room : Nat) (c : RecordClass) (H : Heap) (content : Bytes) (n : Nat) (v : Version) (e : PyErr) : Prop :=
  readCall room c H (handlerAt content n v) = .error e

/-- `o.to_bytes(v)` returns `bs` and changes nothing. -/
def SavesAt (room : Nat) (H : Heap) (o : HVal) (v : Version) (bs : Bytes) : Prop := ∀ s, toBytes room o v H s = .ok (.bytes bs, H, s)

theorem ReadsObject.package {room : Nat} {c : RecordClass} {H H' : Heap} {content : Bytes} {n m : Nat} {v : Version} {o : HVal}
    (h : ReadsObject room c H content n v o H' m) (hk : OfPackage H) : OfPackage H' := by
  obtain ⟨t, h, -⟩ := h
  cases c <;> exact (C61_objects_keep_class room _ _ _ _ _ _ _ _ _ h).2.2.2.2 hk

theorem ReadsObject.model {room : Nat} (hr : 13 ≤ room) {c : RecordClass} {H H' : Heap} {content : Bytes} {n m : Nat} {v : Version} {o : HVal}
    (h : ReadsObject room c H content n v o H' m) :
    ∃ x s' N fp, c.fromBytes (handlerAt content n v) = .ok (x, s') ∧ s'.offset = m ∧ H' = H ++ N ∧ Rep H' o (objectAt v c x) fp ∧ fp.Nodup ∧
      ∀ a ∈ fp, H.length ≤ a := by
  obtain ⟨t, h1, -, h2, -⟩ := h
  have h3 := readCall_reads room hr c H (handlerAt content n v)
  unfold ReadsValue at h3
  cases hd : c.fromBytes (handlerAt content n v) with
  | error e => rw [hd] at h3; dsimp only at h3; rw [h3] at h1; cases h1
  | ok p =>
    obtain ⟨x, s'⟩ := p
    rw [hd] at h3
    obtain ⟨o', N, t', fp, e1, -, e3, -, r, nd, fr⟩ := h3
    rw [h1] at e1
    cases e1
    exact ⟨x, s', N, fp, rfl, by rw [← e3, h2], rfl, r, nd, fr⟩

theorem ReadsObject.of_model {room : Nat} (hr : 13 ≤ room) (c : RecordClass) (H : Heap) {content : Bytes} {n : Nat} {v : Version} {x : c.Obj} {s' : ByteHandler}
    (hd : c.fromBytes (handlerAt content n v) = .ok (x, s')) :
    ∃ o N, ReadsObject room c H content n v o (H ++ N) s'.offset ∧ HasValue (H ++ N) o (objectAt v c x) := by
  have h3 := readCall_reads room hr c H (handlerAt content n v)
  unfold ReadsValue at h3
  rw [hd] at h3
  obtain ⟨o, N, t, fp, e1, e2, e3, e4, r, -, -⟩ := h3
  obtain ⟨k, hm⟩ := C08_record_cursor c _ _ _ hd
  exact ⟨o, N, ⟨t, e1, by rw [e2]; exact hm.1, e3, e4⟩, fp, r⟩

theorem savesAt_model {room : Nat} (hr : 18 ≤ room) {c : RecordClass} {H : Heap} (hk : OfPackage H) {o : HVal} {v v' : Version} {x : c.Obj} (hx : c.Sized x)
    (hv : HasValue H o (objectAt v' c x)) {bs : Bytes} (hb : c.toBytes v x = .ok bs) : SavesAt room H o v bs := by
  intro s
  obtain ⟨fp, r⟩ := hv
  have e := C47_save_record c H o _ fp r x (objectAt_carries v' c x) hx 4 (Nat.le_refl _) v
  have := C61_to_bytes_of_every_object H hk s o v 4 room (by omega) (by rw [e, hb]; intro h; cases h)
  rw [e, hb] at this
  exact this

theorem SavesAt.unique {room : Nat} {H : Heap} {o : HVal} {v : Version} {a b : Bytes} (h1 : SavesAt room H o v a) (h2 : SavesAt room H o v b) : a = b := by
  have e := (h1 (ByteHandler.new [])).symm.trans (h2 (ByteHandler.new []))
  cases e
  rfl

/-- Any content, from any position: an object of the class is read, or one of three exceptions is raised; which of both, the value, and the position after it
depend neither on the objects that exist nor on the room for calls. The position does not go backwards. -/
theorem C69_total (c : RecordClass) (content : Bytes) (n : Nat) (v : Version) :
    (∃ e, (e = .structError ∨ e = .assertionError ∨ e = .unicodeDecodeError) ∧ ∀ room, 13 ≤ room → ∀ H, RefusesObject room c H content n v e) ∨
    ∃ t m, n ≤ m ∧ ∀ room, 13 ≤ room → ∀ H, ∃ o N, ReadsObject room c H content n v o (H ++ N) m ∧ HasValue (H ++ N) o t := by
  cases hd : c.fromBytes (handlerAt content n v) with
  | error e =>
    refine .inl ⟨e, C10_record_errors c _ _ hd, fun room hr H => ?_⟩
    have h3 := readCall_reads room hr c H (handlerAt content n v)
    unfold ReadsValue at h3
    rw [hd] at h3
    exact h3
  | ok p =>
    obtain ⟨x, s'⟩ := p
    obtain ⟨k, hm⟩ := C08_record_cursor c _ _ _ hd
    refine .inr ⟨_, s'.offset, ?_, fun room hr H => ReadsObject.of_model hr c H hd⟩
    rw [show s'.offset = n + k from hm.2.2]
    omega

/-- Reading an object changes no object that existed, and makes it of new ones, each in one place only. -/
theorem C69_isolated (room : Nat) (hr : 13 ≤ room) (c : RecordClass) (H H' : Heap) (content : Bytes) (n m : Nat) (v : Version) (o : HVal)
    (h : ReadsObject room c H content n v o H' m) : H <+: H' ∧ ∃ t fp, Rep H' o t fp ∧ fp.Nodup ∧ ∀ a ∈ fp, H.length ≤ a := by
  obtain ⟨x, s', N, fp, -, -, rfl, r, nd, fr⟩ := h.model hr
  exact ⟨⟨N, rfl⟩, _, fp, r, nd, fr⟩

/-- What was read can be written; and what was written is read again, wherever it is in a content, all of it and not more, as an object with the same value, which is
written as the same bytes. -/
theorem C69_read_write_read (room : Nat) (hr : 18 ≤ room) (c : RecordClass) (H H' : Heap) (hk : OfPackage H) (content : Bytes) (n m : Nat) (v : Version) (o : HVal)
    (h : ReadsObject room c H content n v o H' m) :
    ∃ t out, HasValue H' o t ∧ SavesAt room H' o v out ∧
      ∀ H2, OfPackage H2 → ∀ pre post, ∃ o2 H2', ReadsObject room c H2 (pre ++ out ++ post) pre.length v o2 H2' (pre.length + out.length) ∧ HasValue H2' o2 t ∧
        SavesAt room H2' o2 v out := by
  obtain ⟨x, s', N, fp, hd, -, rfl, r, -, -⟩ := h.model (by omega)
  have hw : c.WF v x := C13_record_parsed_wellformed c _ _ _ hd
  obtain ⟨out, h1, h2⟩ := C11_record_round_trip c v x hw
  refine ⟨_, out, ⟨fp, r⟩, savesAt_model hr (h.package hk) (record_sized c hw) ⟨fp, r⟩ h1, fun H2 hk2 pre post => ?_⟩
  obtain ⟨o2, N2, l, hv⟩ := ReadsObject.of_model (room := room) (by omega) c H2 (n := pre.length) (v := v) (content := pre ++ out ++ post) (h2 pre post false)
  exact ⟨o2, _, l, hv, savesAt_model hr (l.package hk2) (record_sized c hw) hv h1⟩

/-- Two objects of a class that were read at the same version have the same value exactly if they are written as the same bytes; and the bytes of one are never a
proper beginning of those of the other. -/
theorem C69_values_and_bytes (room : Nat) (hr : 18 ≤ room) (c : RecordClass) (v : Version) (H1 H1' H2 H2' : Heap) (hk1 : OfPackage H1) (hk2 : OfPackage H2)
    (content1 content2 out1 out2 : Bytes) (o1 o2 : HVal) (n1 n2 m1 m2 : Nat) (h1 : ReadsObject room c H1 content1 n1 v o1 H1' m1)
    (h2 : ReadsObject room c H2 content2 n2 v o2 H2' m2) (s1 : SavesAt room H1' o1 v out1) (s2 : SavesAt room H2' o2 v out2) (t1 t2 : ObjTree)
    (v1 : HasValue H1' o1 t1) (v2 : HasValue H2' o2 t2) : (t1 = t2 ↔ out1 = out2) ∧ (out1 <+: out2 → out1 = out2) := by
  obtain ⟨x1, s1', N1, fp1, hd1, -, rfl, r1, -, -⟩ := h1.model (by omega)
  obtain ⟨x2, s2', N2, fp2, hd2, -, rfl, r2, -, -⟩ := h2.model (by omega)
  have w1 : c.WF v x1 := C13_record_parsed_wellformed c _ _ _ hd1
  have w2 : c.WF v x2 := C13_record_parsed_wellformed c _ _ _ hd2
  obtain ⟨b1, e1, -⟩ := C11_record_round_trip c v x1 w1
  obtain ⟨b2, e2, -⟩ := C11_record_round_trip c v x2 w2
  cases s1.unique (savesAt_model hr (h1.package hk1) (record_sized c w1) ⟨fp1, r1⟩ e1)
  cases s2.unique (savesAt_model hr (h2.package hk2) (record_sized c w2) ⟨fp2, r2⟩ e2)
  obtain ⟨_, v1⟩ := v1
  obtain ⟨_, v2⟩ := v2
  obtain ⟨rfl, -⟩ := v1.det r1
  obtain ⟨rfl, -⟩ := v2.det r2
  refine ⟨⟨fun ht => ?_, fun ho => ?_⟩, fun hp => ?_⟩
  · have q1 := C47_save_record c _ _ _ fp1 r1 x1 (objectAt_carries v c x1) (record_sized c w1) 4 (Nat.le_refl _) v
    have hc : Carries (objectAt v c x1) (c.object x2) := by rw [ht]; exact objectAt_carries v c x2
    have q2 := C47_save_record c _ _ _ fp1 r1 x2 hc (record_sized c w2) 4 (Nat.le_refl _) v
    rw [q1, e1, e2] at q2
    exact Except.ok.inj q2
  · obtain ⟨rfl, -⟩ := C22_unambiguous c v x1 x2 w1 w2 out1 out2 [] [] e1 e2 (by rw [ho])
    rfl
  · exact (C22_prefix_free c v x1 x2 w1 w2 out1 out2 e1 e2 hp).2

/-- What is read is decided by the bytes that are read: if these are all in the content, then wherever they occur, an object with the same value is read from them. -/
theorem C69_only_the_bytes_read (room : Nat) (hr : 13 ≤ room) (c : RecordClass) (H H' : Heap) (content : Bytes) (n m : Nat) (v : Version) (o : HVal)
    (h : ReadsObject room c H content n v o H' m) (hm : m ≤ content.length) :
    ∃ t, HasValue H' o t ∧ ∀ H2 pre post, ∃ o2 H2',
      ReadsObject room c H2 (pre ++ (content.drop n).take (m - n) ++ post) pre.length v o2 H2' (pre.length + (m - n)) ∧ HasValue H2' o2 t := by
  obtain ⟨x, s', N, fp, hd, ho, rfl, r, -, -⟩ := h.model hr
  refine ⟨_, ⟨fp, r⟩, fun H2 pre post => ?_⟩
  obtain ⟨k, hk⟩ := C08_record_cursor c _ _ _ hd
  have hc : s'.content = content := hk.1
  obtain ⟨s2, e1, e2⟩ := C09_record_local c _ _ _ hd (by unfold Within; rw [ho, hc]; exact hm)
    (handlerAt (pre ++ (content.drop n).take (m - n) ++ post) pre.length v) rfl (by
      unfold consumed
      rw [ho]
      show (content.drop n).take (m - n) <+: (pre ++ (content.drop n).take (m - n) ++ post).drop pre.length
      rw [List.append_assoc, List.drop_left]
      exact List.prefix_append _ _)
  obtain ⟨o2, N2, l, hv⟩ := ReadsObject.of_model hr c H2 e1
  have : s2.offset = pre.length + (m - n) := by rw [e2.2.2, ho]; rfl
  rw [this] at l
  exact ⟨o2, _, l, hv⟩

/-- Writing any object with a value of the class, at any version: bytes, or one of the exceptions of C37. -/
theorem C69_write_exceptions (room : Nat) (hr : 18 ≤ room) (c : RecordClass) (H : Heap) (hk : OfPackage H) (o : HVal) (v v' : Version) (x : c.Obj) (hx : c.Sized x)
    (hv : HasValue H o (objectAt v' c x)) :
    (∃ bs, SavesAt room H o v bs) ∨
    ∃ e, (ValueErr e ∨ e = .assertionError ∨ e = .indexError) ∧ ∀ s, toBytes room o v H s = .error e := by
  cases hb : c.toBytes v x with
  | ok bs => exact .inl ⟨bs, savesAt_model hr hk hx hv hb⟩
  | error e =>
    have he : ValueErr e ∨ e = .assertionError ∨ e = .indexError := by
      rcases C37_record_errors c v x e hb with h | ⟨h, -⟩ | ⟨h, -⟩
      · exact .inl h
      · exact .inr (.inl h)
      · exact .inr (.inr h)
    refine .inr ⟨e, he, fun s => ?_⟩
    obtain ⟨fp, r⟩ := hv
    have e' := C47_save_record c H o _ fp r x (objectAt_carries v' c x) hx 4 (Nat.le_refl _) v
    have := C61_to_bytes_of_every_object H hk s o v 4 room (by omega) (by
      rw [e', hb]
      intro h
      cases h
      rcases he with h | h | h
      · rcases h with h | h | h <;> cases h
      · cases h
      · cases h)
    rw [e', hb] at this
    exact this

-- for every class, at every version, there is an object that is read
example (c : RecordClass) (v : Version) (hv : v ≠ .UNDEFINED) : ∃ bs o H', ReadsObject 18 c [] bs 0 v o H' bs.length := by
  obtain ⟨bs, -, h⟩ := C11_record_round_trip c v (Sample.ofClass v c) (Sample.wf v hv c)
  obtain ⟨o, N, l, -⟩ := ReadsObject.of_model (room := 18) (by omega) c [] (n := 0) (v := v) (content := [] ++ bs ++ []) (h [] [] false)
  exact ⟨bs, o, N, by simpa using l⟩

end Genie.Src
