import Verif.Props.C62_SourceIo
import Verif.Props.C28_Truncation
import Verif.Props.C28_Cut
import Verif.Props.C08_C10_Readers
import Verif.Props.C24_C26_Files
import Verif.Spec.Samples
/-!
# C68: the guarantees a user relies on, of the source alone

The main guarantees of C08 to C28, stated without any model of the package: only executions of its source occur (`Loads`, `Refuses`, `Saves` below, `callIo` for
`parse` and `save`), the value of an object (`Rep`, `Spec/Objects.lean`), bytes, and the disk.
-/

namespace Genie.Src

/-- `DatFile.from_bytes(ByteHandler(memoryview(bs)))`, executed when the objects `H` exist, returns `o`, after which the objects `H'` exist and the first
`n` bytes are read. -/
def Loads (room : Nat) (H : Heap) (bs : Bytes) (o : HVal) (H' : Heap) (n : Nat) : Prop :=
  ∃ t, fromBytes room n!"DatFile" H (ByteHandler.new bs) = .ok (.h o, H', t) ∧ t.offset = n

/-- It raises `e`. -/
def Refuses (room : Nat) (H : Heap) (bs : Bytes) (e : PyErr) : Prop := fromBytes room n!"DatFile" H (ByteHandler.new bs) = .error e

/-- `o.to_bytes(…)` returns `bs` and changes nothing. -/
def Saves (room : Nat) (H : Heap) (o : HVal) (bs : Bytes) : Prop := ∀ ver s, toBytes room o ver H s = .ok (.bytes bs, H, s)

/-- The object `o` has the value `t`. -/
def HasValue (H : Heap) (o : HVal) (t : ObjTree) : Prop := ∃ fp, Rep H o t fp

theorem Loads.model {room : Nat} (hr : 13 ≤ room) {H H' : Heap} {bs : Bytes} {o : HVal} {n : Nat} (h : Loads room H bs o H' n) :
    ∃ d s' N fp, DatFile.fromBytes (ByteHandler.new bs) = .ok (d, s') ∧ s'.offset = n ∧ H' = H ++ N ∧ Rep H' o (d.object d.old) fp ∧ fp.Nodup ∧
      ∀ a ∈ fp, H.length ≤ a := by
  obtain ⟨t, h1, h2⟩ := h
  obtain ⟨c1, c2⟩ := C60_load room hr H (ByteHandler.new bs)
  cases hd : DatFile.fromBytes (ByteHandler.new bs) with
  | error e => rw [c1 e hd] at h1; cases h1
  | ok p =>
    obtain ⟨d, s'⟩ := p
    obtain ⟨v, N, fp, t', e1, e2, -, r, nd, fr⟩ := c2 d s' hd
    rw [h1] at e1
    cases e1
    rw [← DatFile.old_parsed hd] at r
    exact ⟨d, s', N, fp, rfl, by rw [← e2, h2], rfl, r, nd, fr⟩

theorem Loads.of_model {room : Nat} (hr : 13 ≤ room) (H : Heap) {bs : Bytes} {d : DatFile} {s' : ByteHandler}
    (hd : DatFile.fromBytes (ByteHandler.new bs) = .ok (d, s')) :
    ∃ o N, Loads room H bs o (H ++ N) s'.offset ∧ HasValue (H ++ N) o (d.object d.old) := by
  obtain ⟨v, N, fp, t', e1, e2, -, r, nd, fr⟩ := (C60_load room hr H (ByteHandler.new bs)).2 d s' hd
  rw [← DatFile.old_parsed hd] at r
  exact ⟨v, N, ⟨t', e1, e2⟩, fp, r⟩

theorem Loads.package {room : Nat} {H H' : Heap} {bs : Bytes} {o : HVal} {n : Nat} (h : Loads room H bs o H' n) (hk : OfPackage H) : OfPackage H' := by
  obtain ⟨t, h1, -⟩ := h
  exact (C61_objects_keep_class room _ _ _ _ _ _ _ _ _ h1).2.2.2.2 hk

theorem saves_model {room : Nat} (hr : 22 ≤ room) {H : Heap} (hk : OfPackage H) {o : HVal} {d : DatFile} (hd : DatFile.WF d) (hv : HasValue H o (d.object d.old))
    {bs : Bytes} (hb : d.toBytes = .ok bs) : Saves room H o bs := by
  intro ver s
  obtain ⟨fp, r⟩ := hv
  obtain ⟨v, hd⟩ := hd
  have := C61_save H hk s o _ fp r d (DatFile.converts _ d).carries hd.sized room hr ver
  rw [hb] at this
  exact this

theorem Saves.unique {room : Nat} {H : Heap} {o : HVal} {a b : Bytes} (h1 : Saves room H o a) (h2 : Saves room H o b) : a = b := by
  have e := (h1 .UNDEFINED (ByteHandler.new [])).symm.trans (h2 .UNDEFINED (ByteHandler.new []))
  cases e
  rfl

/-- Any bytes whatsoever are loaded, or refused with one of four exceptions; which of both, the value and how far it reads depend neither on the objects that
exist nor on the room for calls. -/
theorem C68_total (bs : Bytes) :
    (∃ e, (e = .structError ∨ e = .assertionError ∨ e = .unicodeDecodeError ∨ e = .valueError) ∧ ∀ room, 13 ≤ room → ∀ H, Refuses room H bs e) ∨
    ∃ t n, ∀ room, 13 ≤ room → ∀ H, ∃ o N, Loads room H bs o (H ++ N) n ∧ HasValue (H ++ N) o t := by
  cases hd : DatFile.fromBytes (ByteHandler.new bs) with
  | error e => exact .inl ⟨e, C10_datfile_errors _ _ hd, fun room hr H => (C60_load room hr H _).1 e hd⟩
  | ok p =>
    obtain ⟨d, s'⟩ := p
    exact .inr ⟨_, s'.offset, fun room hr H => Loads.of_model hr H hd⟩

/-- Loading changes no object that existed, and makes the new object of new ones, each in one place only. -/
theorem C68_isolated (room : Nat) (hr : 13 ≤ room) (H H' : Heap) (bs : Bytes) (o : HVal) (n : Nat) (h : Loads room H bs o H' n) :
    H <+: H' ∧ ∃ t fp, Rep H' o t fp ∧ fp.Nodup ∧ ∀ a ∈ fp, H.length ≤ a := by
  obtain ⟨d, s', N, fp, -, -, rfl, r, nd, fr⟩ := h.model hr
  exact ⟨⟨N, rfl⟩, _, fp, r, nd, fr⟩

/-- What was loaded can be saved; and what was saved — also with other bytes after it — is loaded again, all of it, as an object with the same value, which
is saved as the same bytes. -/
theorem C68_load_save_load (room : Nat) (hr : 22 ≤ room) (H H' : Heap) (hk : OfPackage H) (bs : Bytes) (o : HVal) (n : Nat) (h : Loads room H bs o H' n) :
    ∃ t out, HasValue H' o t ∧ Saves room H' o out ∧
      ∀ H2, OfPackage H2 → ∀ rest, ∃ o2 H2', Loads room H2 (out ++ rest) o2 H2' out.length ∧ HasValue H2' o2 t ∧ Saves room H2' o2 out := by
  obtain ⟨d, s', N, fp, hd, -, rfl, r, -, -⟩ := h.model (by omega)
  have hw : DatFile.WF d := ⟨_, C13_parsed_wellformed _ _ _ hd⟩
  obtain ⟨out, h1, h2⟩ := C12_datfile_round_trip_file d hw
  refine ⟨_, out, ⟨fp, r⟩, saves_model hr (h.package hk) hw ⟨fp, r⟩ h1, fun H2 hk2 rest => ?_⟩
  obtain ⟨s2, e1, e2⟩ := h2 rest
  obtain ⟨o2, N2, l, v⟩ := Loads.of_model (room := room) (by omega) H2 e1
  rw [e2] at l
  exact ⟨o2, _, l, v, saves_model hr (l.package hk2) hw v h1⟩

/-- Two loaded files have the same value exactly if they are saved as the same bytes; and the bytes of one are never a proper beginning of the bytes of
another. -/
theorem C68_values_and_bytes (room : Nat) (hr : 22 ≤ room) (H1 H1' H2 H2' : Heap) (hk1 : OfPackage H1) (hk2 : OfPackage H2) (bs1 bs2 out1 out2 : Bytes)
    (o1 o2 : HVal) (n1 n2 : Nat) (h1 : Loads room H1 bs1 o1 H1' n1) (h2 : Loads room H2 bs2 o2 H2' n2) (s1 : Saves room H1' o1 out1)
    (s2 : Saves room H2' o2 out2) (t1 t2 : ObjTree) (v1 : HasValue H1' o1 t1) (v2 : HasValue H2' o2 t2) :
    (t1 = t2 ↔ out1 = out2) ∧ (out1 <+: out2 → out1 = out2) := by
  obtain ⟨d1, s1', N1, fp1, hd1, -, rfl, r1, -, -⟩ := h1.model (by omega)
  obtain ⟨d2, s2', N2, fp2, hd2, -, rfl, r2, -, -⟩ := h2.model (by omega)
  have w1 : DatFile.WF d1 := ⟨_, C13_parsed_wellformed _ _ _ hd1⟩
  have w2 : DatFile.WF d2 := ⟨_, C13_parsed_wellformed _ _ _ hd2⟩
  obtain ⟨b1, e1, -⟩ := C12_datfile_round_trip_file d1 w1
  obtain ⟨b2, e2, -⟩ := C12_datfile_round_trip_file d2 w2
  cases s1.unique (saves_model hr (h1.package hk1) w1 ⟨fp1, r1⟩ e1)
  cases s2.unique (saves_model hr (h2.package hk2) w2 ⟨fp2, r2⟩ e2)
  obtain ⟨_, v1⟩ := v1
  obtain ⟨_, v2⟩ := v2
  obtain ⟨rfl, -⟩ := v1.det r1
  obtain ⟨rfl, -⟩ := v2.det r2
  have hx : ∀ rd re, out1 ++ rd = out2 ++ re → d1 = d2 ∧ rd = re := fun rd re => C22_datfile_unambiguous d1 d2 w1 w2 out1 out2 rd re e1 e2
  refine ⟨⟨fun ht => ?_, fun ho => ?_⟩, fun ⟨rest, hp⟩ => ?_⟩
  · have q1 := C47_save _ _ _ fp1 r1 d1 (DatFile.converts _ d1).carries w1.choose_spec.sized 5 (Nat.le_refl _) .UNDEFINED
    have hc : Carries (d1.object d1.old) (d2.object false) := by rw [ht]; exact (DatFile.converts _ d2).carries
    have q2 := C47_save _ _ _ fp1 r1 d2 hc w2.choose_spec.sized 5 (Nat.le_refl _) .UNDEFINED
    rw [q1, e1, e2] at q2
    exact Except.ok.inj q2
  · obtain ⟨rfl, -⟩ := hx [] [] (by rw [ho])
    rfl
  · obtain ⟨-, hy⟩ := hx rest [] (by rw [hp, List.append_nil])
    rw [← hp, hy, List.append_nil]

/-- What is read is decided by the bytes that are read: if a file is complete, then with anything else after these bytes it is loaded with the same value. -/
theorem C68_only_the_bytes_read (room : Nat) (hr : 13 ≤ room) (H H' : Heap) (bs : Bytes) (o : HVal) (n : Nat) (h : Loads room H bs o H' n) (hn : n ≤ bs.length) :
    ∃ t, HasValue H' o t ∧ ∀ H2 rest, ∃ o2 H2', Loads room H2 (bs.take n ++ rest) o2 H2' n ∧ HasValue H2' o2 t := by
  obtain ⟨d, s', N, fp, hd, ho, rfl, r, -, -⟩ := h.model hr
  refine ⟨_, ⟨fp, r⟩, fun H2 rest => ?_⟩
  have hc : s'.content = bs := by
    obtain ⟨k, l, v, rfl, -⟩ := DatFile.goodFile.ok hd
    rfl
  obtain ⟨s2, e1, -, e3, -⟩ := C09_datfile_local _ _ _ hd (by unfold Within; rw [ho, hc]; exact hn) (ByteHandler.new (bs.take n ++ rest)) (by
    unfold consumed ByteHandler.new
    simp only [List.drop_zero, Nat.sub_zero, ho]
    exact List.prefix_append _ _)
  obtain ⟨o2, N2, l, v⟩ := Loads.of_model hr H2 e1
  have : s2.offset = n := by rw [e3]; simp [ByteHandler.new, ho]
  rw [this] at l
  exact ⟨o2, _, l, v⟩

/-- A saved file that ends too early — more than 39 bytes before the end of its `front`, which is all of it up to the random maps — is refused; but `front` alone
is not. -/
theorem C68_cut (room : Nat) (hr : 22 ≤ room) (H H' : Heap) (hk : OfPackage H) (bs : Bytes) (o : HVal) (n : Nat) (h : Loads room H bs o H' n) :
    ∃ front tail, Saves room H' o (front ++ tail) ∧ 56 ≤ tail.length ∧ (∀ H2, ∃ o2 H2' m, Loads room H2 front o2 H2' m) ∧
      ∀ k, k + 39 < front.length → ∀ H2, ∃ e, Refuses room H2 ((front ++ tail).take k) e := by
  obtain ⟨d, s', N, fp, hd, -, rfl, r, -, -⟩ := h.model (by omega)
  have hw := C13_parsed_wellformed _ _ _ hd
  obtain ⟨cut, tail, h1, h2, h3, h4⟩ := C28_cut_before_part _ d hw .random_maps
  refine ⟨cut, tail, saves_model hr (h.package hk) ⟨_, hw⟩ ⟨fp, r⟩ h1, h3, fun H2 => ?_, fun k hk H2 => ?_⟩
  · unfold DatFile.ofData at h4
    cases hc : DatFile.fromBytes (ByteHandler.new cut) with
    | error e => rw [hc] at h4; cases h4
    | ok p =>
      obtain ⟨o2, N2, l, -⟩ := Loads.of_model (room := room) (by omega) H2 (d := p.1) (s' := p.2) hc
      exact ⟨o2, _, _, l⟩
  · obtain ⟨e, he⟩ := C28_early_cut_raises _ d hw cut tail h1 h2 k hk
    refine ⟨e, (C60_load room (by omega) H2 _).1 e ?_⟩
    unfold DatFile.ofData at he
    cases hc : DatFile.fromBytes (ByteHandler.new ((cut ++ tail).take k)) with
    | error e' => rw [hc] at he; cases he; rfl
    | ok p => rw [hc] at he; cases he

/-! ## files -/

/-- `DatFile.parse(x)` -/
def parseFile (P : Platform) (room : Nat) (x : IVal) (w : World) : World × Outcome IVal :=
  callIo P room n!"DatFile" n!"parse" [.p (.cls n!"DatFile"), x] w

/-- `o.save(x)` -/
def saveFile (P : Platform) (room : Nat) (o : HVal) (x : IVal) (w : World) : World × Outcome IVal :=
  callIo P room n!"DatFile" n!"save" [.p (.h o), x] w

theorem parseFile_returned {P : Platform} {room : Nat} (hr : 14 ≤ room) {w w1 : World} {x v : IVal} {p : Path} (hx : x.asPath = some p)
    (h : parseFile P room x w = (w1, .returned v)) :
    ∃ d o N fp, DatFile.parse P.zlib w.disk p = .returned d ∧ v = .p (.h o) ∧ w1 = { w with heap := w.heap ++ N } ∧ Rep w1.heap o (d.object d.old) fp := by
  have h1 := C62_parse P room hr w x p hx
  unfold parseFile at h
  cases hd : DatFile.parse P.zlib w.disk p with
  | raised e => rw [hd] at h1; dsimp only at h1; rw [h1] at h; cases h
  | crashed => rw [hd] at h1; exact h1.elim
  | returned d =>
    rw [hd] at h1
    obtain ⟨o, N, fp, e1, r, -⟩ := h1
    rw [e1] at h
    cases h
    exact ⟨d, o, N, fp, rfl, rfl, rfl, r⟩

theorem parseFile_package {P : Platform} {room : Nat} (hr : 14 ≤ room) {w w1 : World} {x : IVal} {out : Outcome IVal} {p : Path} (hx : x.asPath = some p)
    (hk : OfPackage w.heap) (h : parseFile P room x w = (w1, out)) : OfPackage w1.heap := by
  obtain ⟨n, rfl⟩ : ∃ n, room = n + 1 := ⟨room - 1, by omega⟩
  unfold parseFile at h
  rw [parse_source P n (by omega) w x p hx] at h
  unfold parsed DatFile.parseObject at h
  cases hd : w.disk p with
  | none => rw [hd] at h; cases h; exact hk
  | some content =>
    rw [hd] at h
    dsimp only at h
    cases hz : P.zlib.decompress content with
    | none => rw [hz] at h; cases h; exact hk
    | some data =>
      rw [hz] at h
      dsimp only at h
      have h0 := DatFile_from_bytes.mono (Nat.le_refl _) 13 (by omega) w.heap (ByteHandler.new data)
      cases hb : DatFile.build w.heap (ByteHandler.new data) with
      | error e => rw [hb] at h; cases h; exact hk
      | ok y =>
        obtain ⟨v, H', s'⟩ := y
        rw [hb] at h0 h
        obtain ⟨t, hp, -⟩ := h0
        cases h
        exact (C61_objects_keep_class 13 _ _ _ _ _ _ _ _ _ hp).2.2.2.2 hk

theorem parsed_wf {z : Zlib} {fs : FileSystem} {p : Path} {d : DatFile} (h : DatFile.parse z fs p = .returned d) : DatFile.WF d := by
  have := C47_parse z fs p []
  rw [h] at this
  obtain ⟨_, _, _, -, -, -, -, hw⟩ := this
  exact hw

/-- What `parse` returned, saved to any file of any disk, at any later time.  Without faults, `save` returns, and `parse` of that file gives an object with the same value.  With a
fault of the disk it raises `OSError`, or the process dies; the file is as it was before, or has a part of the data, which `parse` refuses with `zlib.error`, or all of them.  No
other file, no object and no output is changed. -/
theorem C68_parse_save_parse (P : Platform) (hz : P.zlib.Lawful) (room : Nat) (hr : 23 ≤ room) (w w1 : World) (hk : OfPackage w.heap) (x : IVal) (px : Path)
    (hx : x.asPath = some px) (o : HVal) (h : parseFile P room x w = (w1, .returned (.p (.h o)))) :
    ∃ t bs, HasValue w1.heap o t ∧ Saves room w1.heap o bs ∧
      ∀ (P2 : Platform) (_ : P2.zlib = P.zlib) (disk : FileSystem) (y : IVal) (py : Path) (_ : y.asPath = some py), ∃ disk',
        saveFile P2 room o y { w1 with disk := disk } = ({ w1 with disk := disk' },
          match P2.env.fault with
          | none => .returned (.p (.h .none))
          | some (_, true) => .crashed
          | some (_, false) => .raised .osError) ∧
        (∀ q, q ≠ py → disk' q = disk q) ∧
        (P2.env.fault = none → disk' py = some (P.zlib.compress bs)) ∧
        (disk' py = disk py ∨ ∃ part, part <+: P.zlib.compress bs ∧ disk' py = some part) ∧
        (disk' py = some (P.zlib.compress bs) → ∀ w2 : World, w2.disk = disk' → ∃ o2 w3, parseFile P room y w2 = (w3, .returned (.p (.h o2))) ∧ HasValue w3.heap o2 t) ∧
        ∀ part, part <+: P.zlib.compress bs → part ≠ P.zlib.compress bs → disk' py = some part →
          ∀ w2 : World, w2.disk = disk' → parseFile P room y w2 = (w2, .raised .zlibError) := by
  have hkw : OfPackage w1.heap := parseFile_package (by omega) hx hk h
  obtain ⟨d, o', N, fp, hp, e, rfl, r⟩ := parseFile_returned (by omega) hx h
  cases e
  have hw := parsed_wf hp
  have hw' := hw
  obtain ⟨ver, hwf⟩ := hw'
  obtain ⟨bs, hb, -⟩ := C12_datfile_round_trip_file d hw
  refine ⟨_, bs, ⟨fp, r⟩, saves_model (by omega) hkw hw ⟨fp, r⟩ hb, fun P2 hz2 disk y py hy => ?_⟩
  refine ⟨(DatFile.save P.zlib P2.env disk d py).1, ?_, ?_, ?_, ?_, fun hd w2 h2 => ?_, fun part h1 h2 h3 w2 hw2 => ?_⟩
  · have := C62_save P2 room hr { w with heap := w.heap ++ N, disk := disk } hkw o d.old d fp r hwf.sized y py hy
    unfold saveFile
    rw [this, hz2]
    unfold DatFile.save writeBytes
    rw [hb]
    dsimp only
    cases P2.env.fault with
    | none => rfl
    | some f => obtain ⟨k, c⟩ := f; cases c <;> rfl
  · intro q hq
    unfold DatFile.save writeBytes
    rw [hb]
    dsimp only
    cases P2.env.fault with
    | none => dsimp only; rw [runOps_all]; simp [hq]
    | some f => 
      dsimp only
      rcases runOps_writeOps P2.env py disk (P.zlib.compress bs) f.1 with ⟨h1, h2⟩ | ⟨h1, h2⟩
      · rw [h2]
      · rw [h2]; simp [hq]
  · intro hf
    unfold DatFile.save writeBytes
    rw [hb]
    dsimp only
    rw [hf]
    dsimp only
    rw [runOps_all]; simp
  · cases hf : P2.env.fault with
    | none =>
      refine .inr ⟨_, List.prefix_rfl, ?_⟩
      unfold DatFile.save writeBytes
      rw [hb]
      dsimp only
      rw [hf]
      dsimp only
      rw [runOps_all]; simp
    | some f =>
      obtain ⟨k, c⟩ := f
      rcases (C26_interrupted_target P.zlib P2.env disk d py bs hb k c hf).1 with ⟨-, h1⟩ | ⟨-, h1⟩
      · exact .inl h1
      · exact .inr h1
  · have hq : DatFile.parse P.zlib w2.disk py = .returned d := by
      rw [h2]
      exact C24_trailing_bytes P.zlib hz _ d hw bs [] hb py (by rw [hd, List.append_nil])
    have := C62_parse P room (by omega) w2 y py hy
    rw [hq] at this
    obtain ⟨o2, N2, fp2, e1, r2, -⟩ := this
    exact ⟨o2, _, e1, fp2, r2⟩
  · have hq : DatFile.parse P.zlib w2.disk py = .raised .zlibError := by
      rw [hw2]
      exact (C24_parse_outcome P.zlib _ py).2.1 part h3 (hz.truncated bs part h1 h2)
    have := C62_parse P room (by omega) w2 y py hy
    rw [hq] at this
    exact this

-- there are files that can be loaded (a civ with a unit is in this one), and bytes that are refused
example : ∃ bs o H', Loads 22 [] bs o H' bs.length := by
  obtain ⟨bs, -, h⟩ := C12_datfile_round_trip_file (Sample.datFile .VER_88) ⟨_, Sample.datFile_wf .VER_88 (by decide)⟩
  obtain ⟨s', h1, h2⟩ := h []
  rw [List.append_nil] at h1
  obtain ⟨o, N, l, -⟩ := Loads.of_model (room := 22) (by omega) [] h1
  rw [h2] at l
  exact ⟨bs, o, _, l⟩

example : Refuses 22 [] [1, 2, 3] .valueError := (C60_load 22 (by omega) [] _).1 _ rfl

end Genie.Src
