import Verif.Proof.Heap.Saved
import Verif.Proof.Heap.WrittenRecords
import Verif.Props.C45_Objects
import Verif.Model.HeapIo
import Verif.Proof.Cut
/-!
# C47: saving objects

`to_bytes` a second time, on the objects of a heap and with dynamic types (`Verif/Model/HeapWriters.lean`).  The writers look at attributes,
elements and numbers; which of them are the same object does not matter, an `int` may stand for a float, and attributes that the class does
not declare are not looked at (`Carries`, `Verif/Spec/Converts.lean`).  What the theorems about values say about `d.toBytes` thus holds for every object with the value of `d`, in
particular for a loaded file after a user's in-place edits.
-/

namespace Genie
open HReader

/-- Any object that unfolds to the value of `d`, up to `int`s in place of floats and additional attributes, and with sharing or without, is written as `d` is — the
same bytes or the same exception — whatever version is passed to `to_bytes`.  Five nested calls of `to_bytes` are enough. -/
theorem C47_save (H : Heap) (o : HVal) (t : ObjTree) (fp : List Nat) (r : Rep H o t fp) (d : DatFile) (hc : Carries t (d.object false))
    (hs : d.Sized) (depth : Nat) (hn : 5 ≤ depth) (ver : Version) : W.toBytes H depth o ver = d.toBytes :=
  DatFile.written hn d hs o (r.shows hc)

/-- The same for `to_bytes` of every record class. -/
theorem C47_save_record (c : RecordClass) (H : Heap) (o : HVal) (t : ObjTree) (fp : List Nat) (r : Rep H o t fp) (x : c.Obj)
    (hc : Carries t (c.object x)) (hs : c.Sized x) (depth : Nat) (hn : 4 ≤ depth) (ver : Version) :
    W.toBytes H depth o ver = c.toBytes ver x :=
  RecordClass.written hn c x hs o (r.shows hc)

/-- A loaded file, saved as it is: the bytes of its value.  (So C14 and C15 hold for objects: it can be saved, and exactly the clean files
are saved byte by byte as they were.) -/
theorem C47_save_loaded (H H' : Heap) (s s' : ByteHandler) (o : HVal) (h : DatFile.build H s = .ok (o, H', s')) (depth : Nat)
    (hn : 5 ≤ depth) (ver : Version) :
    ∃ d bs, DatFile.fromBytes s = .ok (d, s') ∧ d.toBytes = .ok bs ∧ W.toBytes H' depth o ver = .ok bs ∧
      ∃ h2, DatFile.fromBytes (ByteHandler.new bs) = .ok (d, h2) := by
  obtain ⟨d, N, fp, hd, rfl, r, nd, fr⟩ := load_value h
  obtain ⟨bs, hb, h2⟩ := C14_parsed_can_be_saved _ _ _ hd
  refine ⟨d, bs, hd, hb, ?_, h2⟩
  rw [C47_save _ o _ fp r d (DatFile.converts _ d).carries (C13_parsed_wellformed _ _ _ hd).sized depth hn ver, hb]

/-- Saving twice, or saving two objects with the same value, gives the same bytes; and a heap may grow or change elsewhere. -/
theorem C47_identity_irrelevant (H1 H2 : Heap) (o1 o2 : HVal) (t : ObjTree) (fp1 fp2 : List Nat) (r1 : Rep H1 o1 t fp1)
    (r2 : Rep H2 o2 t fp2) (d : DatFile) (hc : Carries t (d.object false)) (hs : d.Sized) (n1 n2 : Nat) (h1 : 5 ≤ n1) (h2 : 5 ≤ n2)
    (ver1 ver2 : Version) : W.toBytes H1 n1 o1 ver1 = W.toBytes H2 n2 o2 ver2 := by
  rw [C47_save H1 o1 t fp1 r1 d hc hs n1 h1 ver1, C47_save H2 o2 t fp2 r2 d hc hs n2 h2 ver2]

/-- Load, run any program of in-place statements, write: if the program raises on the value, it raises on the objects; and if it makes of
the value something that is, up to `int`s in place of floats and additional attributes, the value of a file `d'`, then the objects are written as `d'` is. -/
theorem C47_load_edit_save (H H' : Heap) (s s' s1 : ByteHandler) (o : HVal) (d : DatFile) (h : DatFile.build H s = .ok (o, H', s'))
    (hd : DatFile.fromBytes s = .ok (d, s')) (es : List Edit) (depth : Nat) (hn : 5 ≤ depth) (ver : Version) :
    (∀ e, editTree es (d.object (decide (s'.version.num < 84))) = .error e → runEdits o es H' s1 = .error e) ∧
    (∀ (t : ObjTree) (d' : DatFile), editTree es (d.object (decide (s'.version.num < 84))) = .ok t → Carries t (d'.object false) → d'.Sized →
      ∃ H'', runEdits o es H' s1 = .ok ((), H'', s1) ∧ W.toBytes H'' depth o ver = d'.toBytes) := by
  obtain ⟨d1, N, fp, hd1, rfl, r, nd, fr⟩ := load_value h
  rw [hd] at hd1
  have e1 : d = d1 := (Prod.mk.inj (Except.ok.inj hd1)).1
  subst e1
  have main := C45_statements _ o _ fp r nd es s1
  constructor
  · intro e he
    rw [he] at main
    exact main
  · intro t d' ht hc hs
    rw [ht] at main
    obtain ⟨H'', fp', hr, r', _⟩ := main
    exact ⟨H'', hr, C47_save _ o _ fp' r' d' hc hs depth hn ver⟩

/-! ## files -/

/-- `DatFile.parse` on objects: it raises what the value model raises, and otherwise returns a new object with that value. -/
theorem C47_parse (z : Zlib) (fs : FileSystem) (p : Path) (H : Heap) :
    match DatFile.parse z fs p with
    | .raised e => DatFile.parseObject z fs p H = .raised e
    | .crashed => False
    | .returned d => ∃ o N fp, DatFile.parseObject z fs p H = .returned (o, H ++ N) ∧ Rep (H ++ N) o (d.object d.old) fp ∧ fp.Nodup ∧
        (∀ a ∈ fp, H.length ≤ a) ∧ DatFile.WF d := by
  unfold DatFile.parse DatFile.parseObject DatFile.ofData
  cases fs p with
  | none => rfl
  | some content =>
    dsimp only
    cases z.decompress content with
    | none => rfl
    | some data =>
      dsimp only
      cases e : DatFile.fromBytes (ByteHandler.new data) with
      | error x => dsimp only; rw [(C45_load_builds H _).1 x e]
      | ok p =>
        obtain ⟨d, s'⟩ := p
        obtain ⟨o, N, fp, hb, r, nd, fr⟩ := (C45_load_builds H _).2 d s' e
        dsimp only
        rw [hb]
        rw [← DatFile.old_parsed e] at r
        exact ⟨o, N, fp, rfl, r, nd, fr, _, C13_parsed_wellformed _ _ _ e⟩

/-- `data.save(…)` on objects does to the disk what it does on values. -/
theorem C47_save_file (z : Zlib) (env : Environment) (fs : FileSystem) (H : Heap) (o : HVal) (t : ObjTree) (fp : List Nat) (r : Rep H o t fp)
    (d : DatFile) (hc : Carries t (d.object false)) (hs : d.Sized) (depth : Nat) (hn : 5 ≤ depth) (p : Path) :
    W.save z env fs H depth o p = DatFile.save z env fs d p := by
  unfold W.save DatFile.save
  rw [C47_save H o t fp r d hc hs depth hn]
  cases d.toBytes <;> rfl

/-- A whole program — parse, edit in place, save — where the edit, on any tree of objects with the value of a file, does in place what
`edit` does on values: it does to the disk what the program on values does (C43), at any crash or fault of the disk. -/
theorem editObject_eq {program : HVal → HReader PUnit} {edit : DatFile → Py DatFile}
    (he : ∀ H o d old fp, Rep H o (DatFile.object old d) fp → fp.Nodup → d.Sized → ∀ s,
      match edit d with
      | .ok d' => ∃ H' fp', program o H s = .ok ((), H', s) ∧ Rep H' o (d'.object old) fp' ∧ d'.Sized
      | .error e => program o H s = .error e)
    (z : Zlib) (env : Environment) (fs : FileSystem) (H : Heap) (depth : Nat) (hn : 5 ≤ depth) (src dst : Path) :
    editObject program z env fs H depth src dst = editFile edit z env fs src dst := by
  have hp := C47_parse z fs src H
  unfold editObject editFile
  cases e : DatFile.parse z fs src with
  | raised x => rw [e] at hp; dsimp only at hp; rw [hp]
  | crashed => rw [e] at hp; exact hp.elim
  | returned d =>
    rw [e] at hp
    obtain ⟨o, N, fp, h1, r, nd, fr, v, hw⟩ := hp
    rw [h1]
    dsimp only
    have := he _ o d _ fp r nd hw.sized (ByteHandler.new [])
    cases e2 : edit d with
    | error x => rw [e2] at this; rw [this]
    | ok d' =>
      rw [e2] at this
      obtain ⟨H', fp', h2, r', hs'⟩ := this
      rw [h2]
      exact C47_save_file z env fs H' o _ fp' r' d' (DatFile.converts _ d').carries hs' depth hn dst

/-- The README program that changes the price of Loom, on objects: what C43 says about it on values. -/
theorem C47_readme_loom_file (z : Zlib) (env : Environment) (fs : FileSystem) (H : Heap) (depth : Nat) (hn : 5 ≤ depth) (src dst : Path) :
    editObject HReader.changeLoom z env fs H depth src dst = editFile Genie.changeLoom z env fs src dst := by
  refine editObject_eq (fun H o d old fp r nd hs s => ?_) z env fs H depth hn src dst
  have main := changeLoom_run r nd s
  cases e : Genie.changeLoom d with
  | error x => rw [e] at main; exact main
  | ok d' =>
    rw [e] at main
    obtain ⟨H'', h1, ed⟩ := main
    obtain ⟨fp', r', _, _⟩ := ed.rep
    exact ⟨H'', fp', h1, r', changeLoom_sized e hs⟩

/-- The README program that takes a task from every king, on objects: what C43 says about it on values. -/
theorem C47_readme_kings_file (z : Zlib) (env : Environment) (fs : FileSystem) (H : Heap) (depth : Nat) (hn : 5 ≤ depth) (src dst : Path) :
    editObject HReader.changeKings z env fs H depth src dst = editFile Genie.changeKings z env fs src dst := by
  refine editObject_eq (fun H o d old fp r nd hs s => ?_) z env fs H depth hn src dst
  have main := changeKings_run r nd s
  cases e : Genie.changeKings d with
  | error x => rw [e] at main; exact main
  | ok d' =>
    rw [e] at main
    obtain ⟨H'', h1, ed⟩ := main
    obtain ⟨fp', r', _, _⟩ := ed.rep
    exact ⟨H'', fp', h1, r', changeKings_sized e hs⟩

/-! ## dynamic types -/

theorem W.toBytes_ref {H : Heap} {a n : Nat} {ver : Version} {c : PyStr} {as : List (PyStr × HVal)} {m : Heap → W.Rec → HVal → Version → Py Bytes}
    (h : H[a]? = some (.record c as)) (hm : W.method c W.methods = some m) :
    W.toBytes H (n + 1) (.ref a) ver = m H (W.toBytes H n) (.ref a) ver := by
  simp [W.toBytes, W.cell, h, hm]

/-- An object that contains itself cannot be saved, whatever the recursion limit is: `effect.effect_commands.append(effect)` and then
`effect.to_bytes(…)`. -/
theorem C47_cycle (name : PyStr) (rest : List HVal) (hname : ∃ b, writeDebugString name = .ok b) (hlen : rest.length < 32767) (depth : Nat)
    (ver : Version) :
    W.toBytes [.record (lit "Effect") [(lit "name", .str name), (lit "effect_commands", .ref 1)], .list (.ref 0 :: rest)] depth (.ref 0) ver =
      .error .recursionError := by
  induction depth with
  | zero => rfl
  | succ n ih =>
    have hm : W.method (lit "Effect") W.methods = some Effect.write := rfl
    obtain ⟨b, hb⟩ := hname
    have h0 : W.debugString (.ok (.str name)) = .ok b := by
      rw [← hb]
      exact W.debugString_eq (H := []) (Ev.ok (Shows.str name))
    have h1 : ∃ c, W.int16 [.record (lit "Effect") [(lit "name", .str name), (lit "effect_commands", .ref 1)], .list (.ref 0 :: rest)]
        (.ok (.int (rest.length + 1 : Nat))) = .ok c := by
      have hb := HasLength.rw16 (i := (rest.length + 1 : Nat)) ⟨by omega, by omega⟩
      obtain ⟨c, hc, _⟩ := hb
      exact ⟨c, (W.int16_eq (Ev.ok (Shows.int _))).trans hc⟩
    obtain ⟨c, hc⟩ := h1
    have l1 : HReader.lookup (lit "name") [(lit "name", HVal.str name), (lit "effect_commands", .ref 1)] = some (.str name) := rfl
    have l2 : HReader.lookup (lit "effect_commands") [(lit "name", HVal.str name), (lit "effect_commands", .ref 1)] = some (.ref 1) := rfl
    have hcell : W.cell [.record (lit "Effect") [(lit "name", .str name), (lit "effect_commands", .ref 1)], .list (.ref 0 :: rest)] (.ref 0) =
      some (.record (lit "Effect") [(lit "name", .str name), (lit "effect_commands", .ref 1)]) := rfl
    have hcell1 : W.cell [.record (lit "Effect") [(lit "name", .str name), (lit "effect_commands", .ref 1)], .list (.ref 0 :: rest)] (.ref 1) =
      some (.list (.ref 0 :: rest)) := rfl
    rw [W.toBytes_ref (c := lit "Effect") rfl hm]
    unfold Effect.write
    simp only [W.attr, hcell, l1, l2, W.len, W.nat, hcell1, W.classArray, W.iter, bind, Except.bind, pure, Except.pure, h0, List.length_cons]
    simp only [hc, joinB.eq_def, List.filter_cons, ne_eq, reduceCtorEq, not_false_eq_true, decide_true, if_true, List.map_cons, ih, bind, Except.bind]

/-- What does not fit raises: `None` in an `int` field, a `str` in a `float` field, an `int` where a string belongs, a missing attribute, and
an `int` where an object of a class belongs. -/
example :
    errorOf (W.int8 [] (.ok .none)) = some .attributeError ∧ errorOf (W.float (.ok (.str (lit "1.0")))) = some .structError ∧
    errorOf (W.debugString (.ok (.int 7))) = some .attributeError ∧
    errorOf (W.attr [.record (lit "X") [(lit "a", .int 1)]] (.ref 0) (lit "b")) = some .attributeError ∧
    errorOf (W.cls (W.toBytes [] 9) (.ok (.int 1)) .VER_88) = some .typeError ∧
    errorOf (W.int16 [] (.ok (.float ⟨0x3FF0000000000000⟩))) = some .attributeError := by decide +kernel

/-- An `int` in a float field is written as that float: an `EffectCommand` with `d = 2`. -/
example : W.toBytes [.record (lit "EffectCommand") [(lit "type", .int 4), (lit "a", .int 1), (lit "b", .int 2), (lit "c", .int 3), (lit "d", .int 2)]]
    4 (.ref 0) .VER_88 = EffectCommand.toBytes .VER_88 ⟨4, 1, 2, 3, ⟨0x4000000000000000⟩⟩ :=
  C47_save_record .EffectCommand _ _ _ _
    (.obj rfl (.cons (.int _) (.cons (.int _) (.cons (.int _) (.cons (.int _) (.cons (.int _) .nil))))))
    (⟨4, 1, 2, 3, ⟨0x4000000000000000⟩⟩ : EffectCommand)
    (.obj (.cons (.int _) (.cons (.int _) (.cons (.int _) (.cons (.int _) (.cons (.promote (d := 0x4000000000000000) (by decide +kernel)) .extra))))))
    trivial 4 (by omega) _

/-- Sharing: one command, in the list twice, is written twice. -/
example (c : EffectCommand) (name : PyStr) (H : Heap) (a : HVal) (fp : List Nat) (r : Rep H a c.object fp) (ver : Version) :
    W.toBytes (H ++ [.list [a, a], .record (lit "Effect") [(lit "name", .str name), (lit "effect_commands", .ref H.length)]]) 4
      (.ref (H.length + 1)) ver = Effect.toBytes ver ⟨name, [c, c]⟩ := by
  have e0 : (H ++ [.list [a, a], .record (lit "Effect") [(lit "name", .str name), (lit "effect_commands", .ref H.length)]])[H.length]? =
      some (Cell.list [a, a]) := by simp
  have e1 : (H ++ [.list [a, a], .record (lit "Effect") [(lit "name", .str name), (lit "effect_commands", .ref H.length)]])[H.length + 1]? =
      some (.record (lit "Effect") [(lit "name", .str name), (lit "effect_commands", .ref H.length)]) := by simp
  have r' := r.extend [.list [a, a], .record (lit "Effect") [(lit "name", .str name), (lit "effect_commands", .ref H.length)]]
  exact C47_save_record .Effect _ _ _ _ (.obj e1 (.cons (.str _) (.cons (.list e0 (.cons r' (.cons r' .nil))) .nil))) (⟨name, [c, c]⟩ : Effect)
    (Carries.refl _) trivial 4 (by omega) ver

/-- The cyclic object exists. -/
example : ∃ b, writeDebugString (lit "Loom") = .ok b := by
  have h : (resultOf (writeDebugString (lit "Loom"))).isSome = true := by decide +kernel
  cases e : writeDebugString (lit "Loom") with
  | error x => rw [e] at h; cases h
  | ok b => exact ⟨b, rfl⟩

/-- For every version there is a file that can be loaded into a heap, and then saved with its own bytes; both README programs run on it (C43). -/
example (v : Version) (hv : v ≠ .UNDEFINED) : ∃ bs s' o H', DatFile.build [] (ByteHandler.new bs) = .ok (o, H', s') ∧
    W.toBytes H' 5 o .UNDEFINED = .ok bs := by
  have hw : DatFile.WF (Sample.modFile v (some (Sample.archer v))) :=
    ⟨v, Sample.modFile_wf v hv (some (Sample.archer v)) fun u hu => by cases hu; exact Sample.archer_wf v hv⟩
  obtain ⟨bs, hb, _⟩ := C12_datfile_round_trip_file _ hw
  obtain ⟨s', hr⟩ := (C13_round_trips_iff _ bs hb).2 hw
  obtain ⟨o, N, _, h, _⟩ := (C45_load_builds [] (ByteHandler.new bs)).2 _ s' hr
  obtain ⟨d, bs', h1, h2, h3, _⟩ := C47_save_loaded _ _ _ _ _ h 5 (by omega) .UNDEFINED
  rw [hr] at h1
  have e1 := (Prod.mk.inj (Except.ok.inj h1)).1
  rw [← e1, hb] at h2
  rw [← Except.ok.inj h2] at h3
  exact ⟨bs, s', o, _, h, h3⟩

end Genie
