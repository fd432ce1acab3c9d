import Verif.Props.C68_SourceGuarantees
import Verif.Props.C51_FileStatements
import Verif.Props.C48_TypedPrograms
import Verif.Props.C20_C21_C35_Conversion
import Verif.Props.C27_Edits
import Verif.Proof.Source.EditsKeep
/-!
# C70: edits and conversions, of the source alone

What a user does between loading and saving (C20, C21, C27, C35, C48, C51), with loading and saving executed from the source of the package.  The
statements of the user's program (`runEdits`, `Verif/Model/HeapPrograms.lean`) are not part of the package.
-/

namespace Genie.Src
open ObjTree

/-- The statements `es`, executed on `o` when the objects are `H`, end normally, and then the objects are `H'`.  (They use no handler.) -/
def Edits (H : Heap) (o : HVal) (es : List Edit) (H' : Heap) : Prop := runEdits o es H (ByteHandler.new []) = .ok ((), H', ByteHandler.new [])

/-- They raise `e`. -/
def EditsRaise (H : Heap) (o : HVal) (es : List Edit) (e : PyErr) : Prop := runEdits o es H (ByteHandler.new []) = .error e

/-- `o.to_bytes(…)` raises `e`. -/
def SaveRaises (room : Nat) (H : Heap) (o : HVal) (e : PyErr) : Prop := ∀ ver s, toBytes room o ver H s = .error e

/-- Whatever exists and whatever follows, the bytes are loaded, all of them and no more, as an object with the value `d`. -/
def LoadsAs (room : Nat) (bs : Bytes) (d : DatFile) : Prop :=
  ∀ H rest, ∃ o N, Loads room H (bs ++ rest) o (H ++ N) bs.length ∧ HasValue (H ++ N) o (d.object d.old)

/-- A file that was loaded, with the value `d` and the version `v`. -/
structure Loaded (H' : Heap) (o : HVal) (d : DatFile) (v : Version) : Prop where
  /-- the object -/
  value : HasValue H' o (d.object d.old)
  /-- its version -/
  version : d.version = v.value
  /-- the value is one that files can have -/
  wf : DatFile.WFAt v d

/-- What an edited file is written like. -/
def SavesLike (room : Nat) (H : Heap) (o : HVal) (r : Py Bytes) : Prop :=
  match r with
  | .ok bs => Saves room H o bs
  | .error e => SaveRaises room H o e

theorem LoadsAs.of_wf {room : Nat} (hr : 13 ≤ room) {d : DatFile} (hw : DatFile.WF d) {bs : Bytes} (hb : d.toBytes = .ok bs) : LoadsAs room bs d := by
  intro H rest
  obtain ⟨out, h1, h2⟩ := C12_datfile_round_trip_file d hw
  rw [hb] at h1
  cases h1
  obtain ⟨s2, e1, e2⟩ := h2 rest
  obtain ⟨o2, N2, l, v⟩ := Loads.of_model hr H e1
  rw [e2] at l
  exact ⟨o2, N2, l, v⟩

/-- The core: a loaded object has a value, and what statements do to it is what they do to the value. -/
theorem Loads.edited {room : Nat} (hr : 22 ≤ room) {H H' : Heap} (hk : OfPackage H) {bs : Bytes} {o : HVal} {n : Nat} (h : Loads room H bs o H' n) :
    ∃ d v, Loaded H' o d v ∧ ∀ es : List Edit, (∀ e ∈ es, Packaged e.value) →
      (∀ e, editTree es (d.object d.old) = .error e → EditsRaise H' o es e) ∧
      ∀ t, editTree es (d.object d.old) = .ok t → ∃ H'', Edits H' o es H'' ∧ HasValue H'' o t ∧
        ∀ d' : DatFile, Carries t (d'.object false) → d'.Sized → SavesLike room H'' o d'.toBytes := by
  have hk' := h.package hk
  obtain ⟨d, s', N, fp, hd, -, rfl, r, nd, -⟩ := h.model (by omega)
  have hw := C13_parsed_wellformed _ _ _ hd
  refine ⟨d, s'.version, ⟨⟨fp, r⟩, ?_, hw⟩, fun es hes => ?_⟩
  · exact (by decide : ∀ p ∈ versionNames, p.1 = p.2.value) _ hw.version
  have main := C45_statements _ o _ fp r nd es (ByteHandler.new [])
  refine ⟨fun e he => ?_, fun t ht => ?_⟩
  · rw [he] at main; exact main
  · rw [ht] at main
    obtain ⟨H'', fp', h1, r', -, -⟩ := main
    have hk2 : OfPackage H'' := Stays.runEdits o es hes _ _ _ _ _ hk' h1
    refine ⟨H'', h1, ⟨fp', r'⟩, fun d' hc hs => ?_⟩
    have key := fun ver s => C61_save H'' hk2 s o t fp' r' d' hc hs room hr ver
    unfold SavesLike
    cases hb : d'.toBytes with
    | ok out => rw [hb] at key; exact key
    | error e => rw [hb] at key; exact key

theorem Loaded.unique {H : Heap} {o : HVal} {d d2 : DatFile} {v v2 : Version} (a : Loaded H o d v) (b : Loaded H o d2 v2) : d = d2 ∧ v = v2 := by
  obtain ⟨fp, r⟩ := a.value
  obtain ⟨fp2, r2⟩ := b.value
  obtain ⟨ht, -⟩ := r.det r2
  obtain ⟨out, e1, -⟩ := C12_datfile_round_trip_file d ⟨_, a.wf⟩
  obtain ⟨out2, e2, -⟩ := C12_datfile_round_trip_file d2 ⟨_, b.wf⟩
  have q1 := C47_save _ _ _ fp r d (DatFile.converts _ d).carries a.wf.sized 5 (Nat.le_refl _) .UNDEFINED
  have hc : Carries (d.object d.old) (d2.object false) := by rw [ht]; exact (DatFile.converts _ d2).carries
  have q2 := C47_save _ _ _ fp r d2 hc b.wf.sized 5 (Nat.le_refl _) .UNDEFINED
  rw [q1, e1, e2] at q2
  cases q2
  obtain ⟨rfl, -⟩ := C22_datfile_unambiguous d d2 ⟨_, a.wf⟩ ⟨_, b.wf⟩ out out [] [] e1 e2 rfl
  refine ⟨rfl, ?_⟩
  have h : v.value = v2.value := a.version.symm.trans b.version
  revert h
  cases v <;> cases v2 <;> decide

/-- A file that was loaded has one value and one version. -/
theorem C70_loaded (room : Nat) (hr : 22 ≤ room) (H H' : Heap) (hk : OfPackage H) (bs : Bytes) (o : HVal) (n : Nat) (h : Loads room H bs o H' n) :
    ∃ d v, Loaded H' o d v ∧ ∀ d2 v2, Loaded H' o d2 v2 → d2 = d ∧ v2 = v := by
  obtain ⟨d, v, l, -⟩ := h.edited hr hk
  exact ⟨d, v, l, fun _ _ l2 => l2.unique l⟩

theorem Loads.does {room : Nat} (hr : 22 ≤ room) {H H' : Heap} (hk : OfPackage H) {bs : Bytes} {o : HVal} {n : Nat} (h : Loads room H bs o H' n) {d : DatFile}
    {v : Version} (l : Loaded H' o d v) (es : List Edit) (hes : ∀ e ∈ es, Packaged e.value) :
    (∀ e, editTree es (d.object d.old) = .error e → EditsRaise H' o es e) ∧
      ∀ t, editTree es (d.object d.old) = .ok t → ∃ H'', Edits H' o es H'' ∧ HasValue H'' o t ∧
        ∀ d' : DatFile, Carries t (d'.object false) → d'.Sized → SavesLike room H'' o d'.toBytes := by
  obtain ⟨d2, v2, l2, main⟩ := h.edited hr hk
  obtain ⟨rfl, rfl⟩ := l2.unique l
  exact main es hes

theorem SavesLike.cases {room : Nat} {H : Heap} {o : HVal} {d : DatFile} (h : SavesLike room H o d.toBytes) :
    (∃ out, Saves room H o out ∧ d.toBytes = .ok out) ∨
    ∃ e, SaveRaises room H o e ∧ (ValueErr e ∨ (e = .assertionError ∧ d.Mismatched) ∨
      (e = .indexError ∧ ∃ v : Version, d.version = v.value ∧ d.Homeless v) ∨ (e = .valueError ∧ d.UnknownVersion)) := by
  unfold SavesLike at h
  cases hb : d.toBytes with
  | ok out => rw [hb] at h; exact .inl ⟨out, h, rfl⟩
  | error e => rw [hb] at h; exact .inr ⟨e, h, C37_datfile_errors d e hb⟩

/-- Load, execute statements (`FileEdit`: assignments, `append`, `pop`, `insert`, `del` at any places of the file), save.  The statements are executed.  If the
edited value is one that files can have, it is saved, and loading gives it back.  Otherwise `to_bytes` returns bytes, or raises one of the exceptions of C37, for
its reasons. -/
theorem C70_statements (room : Nat) (hr : 22 ≤ room) (H H' : Heap) (hk : OfPackage H) (bs : Bytes) (o : HVal) (n : Nat) (h : Loads room H bs o H' n) (d : DatFile)
    (v : Version) (l : Loaded H' o d v) (es : List FileEdit) (hes : ∀ e ∈ es, Packaged e.python.value) (d' : DatFile) (ha : FileEdit.applyAll es d = some d')
    (hs : d'.Sized) :
    ∃ H'', Edits H' o (es.map FileEdit.python) H'' ∧
      (DatFile.WF d' → ∃ out, Saves room H'' o out ∧ LoadsAs room out d') ∧
      ((∃ out, Saves room H'' o out) ∨
        ∃ e, SaveRaises room H'' o e ∧ (ValueErr e ∨ (e = .assertionError ∧ d'.Mismatched) ∨
          (e = .indexError ∧ ∃ v : Version, d'.version = v.value ∧ d'.Homeless v) ∨ (e = .valueError ∧ d'.UnknownVersion))) := by
  obtain ⟨t, h1, h2⟩ := FileEdit.simulatesAll es ha (DatFile.converts _ d).carries
  obtain ⟨-, main⟩ := h.does hr hk l (es.map FileEdit.python) (fun e he => by
    obtain ⟨f, hf, rfl⟩ := List.mem_map.1 he
    exact hes f hf)
  obtain ⟨H'', m1, -, m3⟩ := main t h1
  have like := m3 d' h2 hs
  refine ⟨H'', m1, fun hw => ?_, ?_⟩
  · obtain ⟨out, e1, -⟩ := C12_datfile_round_trip_file d' hw
    rw [e1] at like
    exact ⟨out, like, .of_wf (by omega) hw e1⟩
  · rcases like.cases with ⟨out, a, -⟩ | b
    · exact .inl ⟨out, a⟩
    · exact .inr b

/-- A statement at a place that is not there raises `IndexError`, `AttributeError` or `TypeError`. -/
theorem C70_missing (room : Nat) (hr : 22 ≤ room) (H H' : Heap) (hk : OfPackage H) (bs : Bytes) (o : HVal) (n : Nat) (h : Loads room H bs o H' n) (d : DatFile)
    (v : Version) (l : Loaded H' o d v) (es : List FileEdit) (hes : ∀ e ∈ es, Packaged e.python.value) (ha : FileEdit.applyAll es d = Option.none)
    (hp : FileEdit.RightAll es d) : ∃ e, Absent e ∧ EditsRaise H' o (es.map FileEdit.python) e := by
  obtain ⟨e, h1, h2⟩ := FileEdit.raisesAll es ha hp (DatFile.converts d.old d).carries
  refine ⟨e, h1, (h.does hr hk l (es.map FileEdit.python) (fun e he => ?_)).1 e h2⟩
  obtain ⟨f, hf, rfl⟩ := List.mem_map.1 he
  exact hes f hf

/-! ## one field -/

theorem Loads.assign {room : Nat} (hr : 22 ≤ room) {H H' : Heap} (hk : OfPackage H) {bs : Bytes} {o : HVal} {m : Nat} (h : Loads room H bs o H' m) {d : DatFile}
    {v : Version} (l : Loaded H' o d v) {n : Node} {p : Place .file n} {x y : n.Obj} (hx : p.get d = some x) {nm : PyStr} {a a' u : ObjTree}
    (hf : FieldAt (n.object x) (n.object y) nm a a') (hu : Carries u a') (hp : Packaged u) (hs : n.Sized x → n.Sized y) :
    ∃ H'', Edits H' o [⟨p.path, .setAttr nm, u⟩] H'' ∧ SavesLike room H'' o (p.set d y).toBytes := by
  obtain ⟨t', h1, h2⟩ := setAttr_at hx (DatFile.converts d.old d).carries hf hu
  have hsd : d.Sized := l.wf.sized
  obtain ⟨H'', m1, -, m3⟩ := (h.does hr hk l [⟨p.path, .setAttr nm, u⟩] (fun e he => by cases List.mem_singleton.1 he; exact hp)).2 t' h1
  exact ⟨H'', m1, m3 _ h2 (p.sized_set d y hsd (hs (p.sized_get d x hsd hx)))⟩

/-- `data….f = i`, for any integer field of any record of a loaded file.  If `i` fits, what is saved differs in the bytes of that field only, and loading it gives
the value with that one field changed; if not, `to_bytes` raises. -/
theorem C70_set_int (room : Nat) (hr : 22 ≤ room) (H H' : Heap) (hk : OfPackage H) (bs : Bytes) (o : HVal) (m : Nat) (h : Loads room H bs o H' m) (d : DatFile)
    (v : Version) (l : Loaded H' o d v) (n : Node) (p : Place .file n) (hs : p.Stored v) (x : n.Obj) (hx : p.get d = some x) (f : IntField n.Obj)
    (hf : f ∈ n.intFields v) (hh : ¬ (n = .record .TrainLocation ∧ f.name = "hot_key_id")) :
    ∃ pre post e, (e = .overflowError ∨ e = .structError) ∧ Saves room H' o (pre ++ intBytes f.width (f.get x) ++ post) ∧
      ∀ i, ∃ H'', Edits H' o [⟨p.path, .setAttr (lit f.name), .int i⟩] H'' ∧
        if FitsInt f.width f.signed i then
          Saves room H'' o (pre ++ intBytes f.width i ++ post) ∧ LoadsAs room (pre ++ intBytes f.width i ++ post) (p.set d (f.set x i))
        else SaveRaises room H'' o e := by
  obtain ⟨pre, post, e, he, main⟩ := C03_int_field v d l.wf n p hs x hx f hf
  obtain ⟨pre2, post2, g1, g2⟩ := C27_int_field v d l.wf n p hs x hx f hf hh
  have good := p.good v d x l.wf hs hx
  have ok := Node.intFields_ok v n f hf
  have self : p.set d (f.set x (f.get x)) = d := by rw [ok.self, good.self]
  have h0 := main (f.get x)
  have hfit : FitsInt f.width f.signed (f.get x) := by
    rw [self, g1] at h0
    split at h0
    · assumption
    · cases h0
  rw [self, if_pos hfit] at h0
  refine ⟨pre, post, e, he, saves_model hr (h.package hk) ⟨v, l.wf⟩ l.value h0, fun i => ?_⟩
  obtain ⟨H'', m1, m2⟩ := h.assign hr hk l hx (Node.intFields_shown v n f hf x i) (.int i) trivial (intFields_sized _ n f hf x i)
  refine ⟨H'', m1, ?_⟩
  rw [main i] at m2
  split
  · rename_i hi
    rw [if_pos hi] at m2
    obtain ⟨k1, s2, k2⟩ := g2 i hi
    have hb := main i
    rw [if_pos hi] at hb
    refine ⟨m2, .of_wf (by omega) ⟨_, C13_parsed_wellformed _ _ _ k2⟩ hb⟩
  · rename_i hi
    rw [if_neg hi] at m2
    exact m2

/-- `data….f = z`, for any float field, and any float — or an `int` that `float(…)` turns into it.  What is saved has the bytes of `z` rounded to the nearest float of
four bytes in place of the old ones, and loading gives the value with that float; where the writer packs it, a float that is too large raises `OverflowError`. -/
theorem C70_set_float (room : Nat) (hr : 22 ≤ room) (H H' : Heap) (hk : OfPackage H) (bs : Bytes) (o : HVal) (m : Nat) (h : Loads room H bs o H' m) (d : DatFile)
    (v : Version) (l : Loaded H' o d v) (n : Node) (p : Place .file n) (hs : p.Stored v) (x : n.Obj) (hx : p.get d = some x) (f : FloatField n.Obj)
    (hf : f ∈ n.floatFields v) (y : PyFloat) (hy : f.get x = some y) :
    ∃ (pre post : Bytes) (packed : Bool), ∀ u z, Carries u (.float z) → Packaged u →
      ∃ H'', Edits H' o [⟨p.path, .setAttr (lit f.name), u⟩] H'' ∧
        if packed = true ∧ TooLarge z then SaveRaises room H'' o .overflowError
        else Saves room H'' o (pre ++ bytesOfFloat z ++ post) ∧
          ∀ H2, ∃ o2 N k, Loads room H2 (pre ++ bytesOfFloat z ++ post) o2 (H2 ++ N) k ∧
            HasValue (H2 ++ N) o2 ((p.set d (f.set x (floatOfBytes (bytesOfFloat z)))).object (p.set d (f.set x (floatOfBytes (bytesOfFloat z)))).old) := by
  obtain ⟨pre, post, packed, main⟩ := C05_float_field v d l.wf n p hs x hx f hf y hy
  refine ⟨pre, post, packed, fun u z hu hp => ?_⟩
  obtain ⟨a, ha, -⟩ := Node.floatFields_shown v n f hf x z
  obtain ⟨H'', m1, m2⟩ := h.assign hr hk l hx ha hu hp (floatFields_sized _ n f hf x z)
  refine ⟨H'', m1, ?_⟩
  rw [(main z).1] at m2
  split
  · rename_i hi
    rw [if_pos hi] at m2
    exact m2
  · rename_i hi
    rw [if_neg hi] at m2
    refine ⟨m2, fun H2 => ?_⟩
    obtain ⟨s2, e1⟩ := (main z).2
    obtain ⟨o2, N2, l2, v2⟩ := Loads.of_model (room := room) (by omega) H2 e1
    exact ⟨o2, N2, _, l2, v2⟩

/-- `data….f = txt`, for any text field. -/
theorem C70_set_text (room : Nat) (hr : 22 ≤ room) (H H' : Heap) (hk : OfPackage H) (bs : Bytes) (o : HVal) (m : Nat) (h : Loads room H bs o H' m) (d : DatFile)
    (v : Version) (l : Loaded H' o d v) (n : Node) (p : Place .file n) (hs : p.Stored v) (x : n.Obj) (hx : p.get d = some x) (f : TextField n.Obj)
    (hf : f ∈ n.textFields v) :
    ∃ pre post, ∀ txt, ∃ H'', Edits H' o [⟨p.path, .setAttr (lit f.name), .str txt⟩] H'' ∧
      if ∀ c ∈ txt, IsScalar c then
        if utf8Len txt ≤ 65535 then
          Saves room H'' o (pre ++ textBytes txt ++ post) ∧ (IsDebugStr txt → LoadsAs room (pre ++ textBytes txt ++ post) (p.set d (f.set x txt)))
        else SaveRaises room H'' o .overflowError
      else SaveRaises room H'' o .unicodeEncodeError := by
  obtain ⟨pre, post, main⟩ := C06_text_field v d l.wf n p hs x hx f hf
  obtain ⟨pre2, post2, g1, g2⟩ := C27_text_field v d l.wf n p hs x hx f hf
  refine ⟨pre, post, fun txt => ?_⟩
  obtain ⟨H'', m1, m2⟩ := h.assign hr hk l hx (Node.textFields_shown v n f hf x txt) (.str txt) trivial (textFields_sized _ n f hf x txt)
  refine ⟨H'', m1, ?_⟩
  have hb := main txt
  rw [hb] at m2
  by_cases h1 : ∀ c ∈ txt, IsScalar c
  · rw [if_pos h1] at m2 hb ⊢
    by_cases h2 : utf8Len txt ≤ 65535
    · rw [if_pos h2] at m2 hb ⊢
      refine ⟨m2, fun ht => ?_⟩
      obtain ⟨-, s2, k2⟩ := g2 txt ht
      exact .of_wf (by omega) ⟨_, C13_parsed_wellformed _ _ _ k2⟩ hb
    · rw [if_neg h2] at m2 ⊢
      exact m2
  · rw [if_neg h1] at m2 ⊢
    exact m2

/-! ## programs that a type checker accepts -/

/-- Load, execute a program of in-place statements that a type checker accepts, save.  The program raises for an index out of range or a use of `None`; or it ends
normally, and then `to_bytes` returns bytes, or raises `OverflowError`, `struct.error`, `UnicodeEncodeError`, `AssertionError`, `IndexError` or `ValueError` — never
`TypeError`, `AttributeError` or `RecursionError`. -/
theorem C70_typed_program (room : Nat) (hr : 22 ≤ room) (H H' : Heap) (hk : OfPackage H) (bs : Bytes) (o : HVal) (n : Nat) (h : Loads room H bs o H' n)
    (es : List Edit) (hes : ∀ e ∈ es, Packaged e.value) (ht : ∀ e ∈ es, Edit.Typed (Declares false) (.cls (lit "DatFile")) e) :
    (∃ e, EditsRaise H' o es e ∧ (e = .indexError ∨ e = .attributeError ∨ e = .typeError)) ∨
    ∃ H'', Edits H' o es H'' ∧
      ((∃ out, Saves room H'' o out) ∨
        ∃ e, SaveRaises room H'' o e ∧ (ValueErr e ∨ e = .assertionError ∨ e = .indexError ∨ e = .valueError)) := by
  obtain ⟨d, v, l, main⟩ := h.edited hr hk
  have f := (C48_fits_iff _).2 ⟨d, DatFile.lengths l.wf, DatFile.converts d.old d⟩
  obtain ⟨m1, m2⟩ := main es hes
  cases e : editTree es (d.object d.old) with
  | error x =>
    refine .inl ⟨x, m1 x e, ?_⟩
    rcases C48_typed_raises es ht _ x f e with k | ⟨k, _⟩
    · exact .inl k
    · exact .inr k
  | ok t =>
    obtain ⟨d', hl, hc⟩ := (C48_fits_iff _).1 (C48_typed_keeps es ht _ t f e)
    obtain ⟨H'', k1, -, k3⟩ := m2 t e
    refine .inr ⟨H'', k1, ?_⟩
    rcases (k3 d' hc.carries hl.sized).cases with ⟨out, a, -⟩ | ⟨x, a, b⟩
    · exact .inl ⟨out, a⟩
    · refine .inr ⟨x, a, ?_⟩
      rcases b with b | ⟨b, -⟩ | ⟨b, -⟩ | ⟨b, -⟩
      · exact .inl b
      · exact .inr (.inl b)
      · exact .inr (.inr (.inl b))
      · exact .inr (.inr (.inr b))

/-! ## files -/

theorem saveFile_like {P : Platform} {room : Nat} (hr : 23 ≤ room) {w : World} (hk : OfPackage w.heap) {o : HVal} {t : ObjTree} (hv : HasValue w.heap o t)
    {d : DatFile} (hc : Carries t (d.object false)) (hs : d.Sized) {y : IVal} {py : Path} (hy : y.asPath = some py) :
    saveFile P room o y w = ({ w with disk := (DatFile.save P.zlib P.env w.disk d py).1 },
        match (DatFile.save P.zlib P.env w.disk d py).2 with
        | .returned _ => .returned (.p (.h .none))
        | .raised e => .raised e
        | .crashed => .crashed) := by
  obtain ⟨fp, r⟩ := hv
  obtain ⟨n, rfl⟩ : ∃ n, room = n + 1 := ⟨room - 1, by omega⟩
  have hne : W.toBytes w.heap 5 o .UNDEFINED ≠ .error .recursionError := by
    rw [C47_save w.heap o _ fp r d hc hs 5 (Nat.le_refl _) .UNDEFINED, ← C47_save w.heap o _ fp r d hc hs (5 + t.height) (by omega) .UNDEFINED]
    exact C47_any_room w.heap o _ fp r _ (by omega) .UNDEFINED
  have hi : IsA w.heap o n!"DatFile" := by
    unfold DatFile.object at hc
    cases hc with
    | obj _ => cases r with
      | obj hcell _ => exact ⟨_, _, hcell, by decide +kernel⟩
  unfold saveFile
  rw [save_source P n 5 (by omega) w hk o hi hne y py hy]
  unfold saved
  rw [C47_save_file P.zlib P.env w.disk w.heap o _ fp r d hc hs 5 (Nat.le_refl _) py]
  cases DatFile.save P.zlib P.env w.disk d py with
  | mk fs out => cases out <;> rfl

/-- Parse, execute statements, save to any file of the disk.  If the edited value `d'` is one that files can have: without faults `save` returns, and `parse` of that
file gives an object with the value `d'`; with a fault it raises `OSError`, or the process dies.  If it is not, `save` may raise an exception of C37, and then no file
is touched.  No other file, and no object, is changed by `save`. -/
theorem C70_parse_edit_save (P : Platform) (hz : P.zlib.Lawful) (room : Nat) (hr : 23 ≤ room) (w w1 : World) (hk : OfPackage w.heap) (x : IVal) (px : Path)
    (hx : x.asPath = some px) (o : HVal) (h : parseFile P room x w = (w1, .returned (.p (.h o)))) :
    ∃ d v, Loaded w1.heap o d v ∧ ∀ (es : List FileEdit) (_ : ∀ e ∈ es, Packaged e.python.value) (d' : DatFile) (_ : FileEdit.applyAll es d = some d') (_ : d'.Sized),
      ∃ H'', Edits w1.heap o (es.map FileEdit.python) H'' ∧
        ∀ (P2 : Platform) (_ : P2.zlib = P.zlib) (disk : FileSystem) (y : IVal) (py : Path) (_ : y.asPath = some py), ∃ disk' out,
          saveFile P2 room o y { w1 with heap := H'', disk := disk } = ({ w1 with heap := H'', disk := disk' }, out) ∧
          (∀ q, q ≠ py → disk' q = disk q) ∧
          (DatFile.WF d' → out = match P2.env.fault with
            | Option.none => .returned (.p (.h .none))
            | some (_, true) => .crashed
            | some (_, false) => .raised .osError) ∧
          (DatFile.WF d' → P2.env.fault = Option.none → ∀ w2 : World, w2.disk = disk' →
            ∃ o2 w3, parseFile P room y w2 = (w3, .returned (.p (.h o2))) ∧ HasValue w3.heap o2 (d'.object d'.old)) ∧
          (∀ e, out = .raised e → e ≠ .osError → disk' = disk ∧ (ValueErr e ∨ (e = .assertionError ∧ d'.Mismatched) ∨
            (e = .indexError ∧ ∃ v : Version, d'.version = v.value ∧ d'.Homeless v) ∨ (e = .valueError ∧ d'.UnknownVersion))) := by
  have hkw : OfPackage w1.heap := parseFile_package (by omega) hx hk h
  obtain ⟨d, o', N, fp, hp, e, rfl, r⟩ := parseFile_returned (by omega) hx h
  cases e
  obtain ⟨v, hw⟩ := parsed_wf hp
  have nd : ∃ fp, Rep (w.heap ++ N) o (d.object d.old) fp ∧ fp.Nodup := by
    have h1 := C62_parse P room (by omega) w x px hx
    rw [hp] at h1
    obtain ⟨o2, N2, fp2, e1, r2, nd2, -⟩ := h1
    unfold parseFile at h
    rw [e1] at h
    obtain ⟨ha, hb⟩ := Prod.mk.inj h
    have hN : w.heap ++ N2 = w.heap ++ N := congrArg World.heap ha
    cases hb
    rw [← hN]
    exact ⟨fp2, r2, nd2⟩
  obtain ⟨fp, r, nd⟩ := nd
  refine ⟨d, v, ⟨⟨fp, r⟩, (by decide : ∀ p ∈ versionNames, p.1 = p.2.value) _ hw.version, hw⟩, fun es hes d' ha hs => ?_⟩
  obtain ⟨t, h1, h2⟩ := FileEdit.simulatesAll es ha (DatFile.converts d.old d).carries
  have main := C45_statements _ o _ fp r nd (es.map FileEdit.python) (ByteHandler.new [])
  rw [h1] at main
  obtain ⟨H'', fp', m1, r', -, -⟩ := main
  have hk2 : OfPackage H'' := Stays.runEdits o _ (fun e he => by
    obtain ⟨f, hf, rfl⟩ := List.mem_map.1 he
    exact hes f hf) _ _ _ _ _ hkw m1
  refine ⟨H'', m1, fun P2 hz2 disk y py hy => ?_⟩
  have like := saveFile_like (P := P2) hr (w := { w with heap := H'', disk := disk }) hk2 ⟨fp', r'⟩ h2 hs hy
  refine ⟨_, _, like, ?_, fun hw' => ?_, fun hw' hf w2 hw2 => ?_, fun e he hne => ?_⟩
  · intro q hq
    unfold DatFile.save writeBytes
    cases d'.toBytes with
    | error e => rfl
    | ok out =>
      dsimp only
      cases P2.env.fault with
      | none => dsimp only; rw [runOps_all]; simp [hq]
      | some f =>
        dsimp only
        rcases runOps_writeOps P2.env py disk (P2.zlib.compress out) f.1 with ⟨h1, h2⟩ | ⟨h1, h2⟩
        · rw [h2]
        · rw [h2]; simp [hq]
  · obtain ⟨bs, hb, -⟩ := C12_datfile_round_trip_file d' hw'
    unfold DatFile.save writeBytes
    rw [hb]
    dsimp only
    cases P2.env.fault with
    | none => rfl
    | some f => obtain ⟨k, c⟩ := f; cases c <;> rfl
  · obtain ⟨bs, hb, -⟩ := C12_datfile_round_trip_file d' hw'
    have hd : (DatFile.save P2.zlib P2.env disk d' py).1 py = some (P.zlib.compress bs) := by
      unfold DatFile.save writeBytes
      rw [hb, hz2]
      dsimp only
      rw [hf]
      dsimp only
      rw [runOps_all]; simp
    have hq : DatFile.parse P.zlib w2.disk py = .returned d' := by
      rw [hw2]
      exact C24_trailing_bytes P.zlib hz _ d' hw' bs [] hb py (by rw [List.append_nil]; exact hd)
    have := C62_parse P room (by omega) w2 y py hy
    rw [hq] at this
    obtain ⟨o2, N2, fp2, e1, r2, -⟩ := this
    exact ⟨o2, _, e1, fp2, r2⟩
  · revert he
    unfold DatFile.save writeBytes
    cases hb : d'.toBytes with
    | error e' =>
      dsimp only
      intro he
      cases he
      exact ⟨rfl, C37_datfile_errors d' e hb⟩
    | ok out =>
      dsimp only
      cases P2.env.fault with
      | none => intro he; cases he
      | some f =>
        obtain ⟨k, c⟩ := f
        cases c
        · intro he; cases he; exact absurd rfl hne
        · intro he; cases he

/-! ## conversions -/

/-- `data.version = "VER …"` -/
def setVersion (w : Version) : Edit := ⟨[], .setAttr (lit "version"), .str w.value⟩

theorem Loads.versioned {room : Nat} (hr : 22 ≤ room) {H H' : Heap} (hk : OfPackage H) {bs : Bytes} {o : HVal} {n : Nat} (h : Loads room H bs o H' n) {d : DatFile}
    {v : Version} (l : Loaded H' o d v) (w : Version) :
    ∃ H'', Edits H' o [setVersion w] H'' ∧ SavesLike room H'' o (DatFile.toBytes { d with version := w.value }) := by
  obtain ⟨-, main⟩ := h.does hr hk l [setVersion w] (fun e he => by cases List.mem_singleton.1 he; exact trivial)
  obtain ⟨H'', m1, -, m3⟩ := main (DatFile.object d.old { d with version := w.value }) rfl
  exact ⟨H'', m1, m3 _ (DatFile.converts _ _).carries (fun c hc => l.wf.sized c hc)⟩

/-- Load a file, set its version to `w`, save it — as bytes that are loaded as a file with the value `d'`. -/
def ConvertsFile (room : Nat) (H' : Heap) (o : HVal) (w : Version) (d' : DatFile) : Prop :=
  ∃ H'' out, Edits H' o [setVersion w] H'' ∧ Saves room H'' o out ∧ LoadsAs room out d'

theorem Loads.converted {room : Nat} (hr : 22 ≤ room) {H H' : Heap} (hk : OfPackage H) {bs : Bytes} {o : HVal} {n : Nat} (h : Loads room H bs o H' n) {d d' : DatFile}
    {v : Version} (l : Loaded H' o d v) {w : Version} (hc : ConvertsTo w d d') : ConvertsFile room H' o w d' := by
  obtain ⟨H'', m1, m2⟩ := h.versioned hr hk l w
  obtain ⟨out, e1, s2, e2, e3, -⟩ := hc
  rw [e1] at m2
  refine ⟨H'', out, m1, m2, fun H2 rest => ?_⟩
  have hw : DatFile.WF d' := ⟨_, C13_parsed_wellformed _ _ _ e2⟩
  obtain ⟨s3, e4, e5, e6, -⟩ := C09_datfile_local _ _ _ e2 (by
    unfold Within
    rw [e3]
    obtain ⟨k, l', v', rfl, -⟩ := DatFile.goodFile.ok e2
    exact Nat.le_refl _) (ByteHandler.new (out ++ rest)) (by
      unfold consumed ByteHandler.new
      simp only [List.drop_zero, Nat.sub_zero, e3, List.take_length]
      exact List.prefix_append _ _)
  obtain ⟨o2, N2, l2, v2⟩ := Loads.of_model (room := room) (by omega) H2 e4
  have : s3.offset = out.length := by rw [e6]; simp [ByteHandler.new, e3]
  rw [this] at l2
  exact ⟨o2, N2, l2, v2⟩

/-- To 8.8, from any version before: only the hot keys of units without creatable record change (to 16000), and the version. -/
theorem C70_upgrade_to_88 (room : Nat) (hr : 22 ≤ room) (H H' : Heap) (hk : OfPackage H) (bs : Bytes) (o : HVal) (n : Nat) (h : Loads room H bs o H' n) (d : DatFile)
    (v : Version) (l : Loaded H' o d v) (hv : v.num < 88) : ConvertsFile room H' o .VER_88 d.upgraded88 :=
  h.converted hr hk l (C20_upgrade v d l.wf hv)

/-- To any later version before 8.8: only the version changes. -/
theorem C70_upgrade (room : Nat) (hr : 22 ≤ room) (H H' : Heap) (hk : OfPackage H) (bs : Bytes) (o : HVal) (n : Nat) (h : Loads room H bs o H' n) (d : DatFile)
    (v : Version) (l : Loaded H' o d v) (w : Version) (hvw : v.num ≤ w.num) (hw : w.num < 88) : ConvertsFile room H' o w { d with version := w.value } :=
  h.converted hr hk l (C35_upgrade v w d l.wf hvw hw)

/-- From 8.8 to 8.4: what is lost is described by `downgraded84`; and if a creatable has no train location, `to_bytes` raises `IndexError`. -/
theorem C70_downgrade (room : Nat) (hr : 22 ≤ room) (H H' : Heap) (hk : OfPackage H) (bs : Bytes) (o : HVal) (n : Nat) (h : Loads room H bs o H' n) (d : DatFile)
    (l : Loaded H' o d .VER_88) :
    (¬ d.Homeless .VER_84 → ConvertsFile room H' o .VER_84 d.downgraded84) ∧
    (d.Homeless .VER_84 → ∃ H'', Edits H' o [setVersion .VER_84] H'' ∧ SaveRaises room H'' o .indexError) := by
  refine ⟨fun hh => h.converted hr hk l (C21_downgrade d l.wf hh), fun hh => ?_⟩
  obtain ⟨H'', m1, m2⟩ := h.versioned hr hk l .VER_84
  rw [C21_homeless .VER_84 d l.wf (by decide) (dropSites_of_new (by decide)) hh] at m2
  exact ⟨H'', m1, m2⟩

/-- To any version at all: what is left is `asVersion`, unless a creatable has no train location, or — before 7.8 — a bird has not three drop sites. -/
theorem C70_any_version (room : Nat) (hr : 22 ≤ room) (H H' : Heap) (hk : OfPackage H) (bs : Bytes) (o : HVal) (n : Nat) (h : Loads room H bs o H' n) (d : DatFile)
    (v : Version) (l : Loaded H' o d v) (w : Version) (hw : w ≠ .UNDEFINED) (hs : d.DropSitesFit w) (hh : ¬ d.Homeless w) :
    ConvertsFile room H' o w (d.asVersion w) :=
  h.converted hr hk l (C21_any_version v w d l.wf hw hs hh)

/-! ## concrete cases -/

theorem sample_loads (v : Version) (hv : v ≠ .UNDEFINED) : ∃ bs o H', Loads 22 [] bs o H' bs.length ∧ Loaded H' o (Sample.datFile v) v := by
  obtain ⟨bs, -, h⟩ := C12_datfile_round_trip_file (Sample.datFile v) ⟨_, Sample.datFile_wf v hv⟩
  obtain ⟨s', h1, h2⟩ := h []
  rw [List.append_nil] at h1
  obtain ⟨o, N, l, hv2⟩ := Loads.of_model (room := 22) (by omega) [] h1
  rw [h2] at l
  have hw := Sample.datFile_wf v hv
  exact ⟨bs, o, _, l, ⟨hv2, (by decide : ∀ p ∈ versionNames, p.1 = p.2.value) _ hw.version, hw⟩⟩

example : OfPackage [] := fun _ _ _ h => by simp at h
-- a file of 7.8 is upgraded, one of 8.8 is downgraded
example : ∃ bs o H', Loads 22 [] bs o H' bs.length ∧ ConvertsFile 22 H' o .VER_88 (Sample.datFile .VER_78).upgraded88 := by
  obtain ⟨bs, o, H', h, l⟩ := sample_loads .VER_78 (by decide)
  exact ⟨bs, o, H', h, C70_upgrade_to_88 22 (Nat.le_refl _) [] H' (fun _ _ _ h => by simp at h) bs o _ h _ _ l (by decide)⟩
-- a program that a type checker accepts
example : Edit.Typed (Declares false) (.cls (lit "DatFile")) (setVersion .VER_88) ∧ Packaged (setVersion .VER_88).value :=
  ⟨.setAttr .here .DatFile rfl (.str _), trivial⟩
-- `append`, `pop` and an assignment on a loaded file of any version are executed, and the file can be saved
example (v : Version) (hv : v ≠ .UNDEFINED) (c : EffectCommand) : ∃ bs o H' H'', Loads 22 [] bs o H' bs.length ∧
    Edits H' o ((Sample.statements c).map FileEdit.python) H'' ∧ ((∃ out, Saves 22 H'' o out) ∨ ∃ e, SaveRaises 22 H'' o e) := by
  obtain ⟨bs, o, H', h, l⟩ := sample_loads v hv
  have hp : Packaged (EffectCommand.object c) := by
    unfold EffectCommand.object Packaged
    exact ⟨by decide +kernel, by simp only [PackagedAttrs, Packaged, and_self]⟩
  obtain ⟨H'', m1, -, m3⟩ := C70_statements 22 (Nat.le_refl _) [] H' (fun _ _ _ h => by simp at h) bs o _ h _ _ l (Sample.statements c) (fun e he => by
    rcases List.mem_cons.1 he with rfl | he
    · exact hp
    rcases List.mem_cons.1 he with rfl | he
    · trivial
    cases List.mem_singleton.1 he
    trivial) _ rfl (fun c hc => (Sample.datFile_wf v hv).sized c hc)
  refine ⟨bs, o, H', H'', h, m1, ?_⟩
  rcases m3 with a | ⟨e, a, -⟩
  · exact .inl a
  · exact .inr ⟨e, a⟩
-- the place of an attack of a unit
example (v : Version) : Sample.attackPlace.Stored v ∧ Sample.attackPlace.get (Sample.datFile v) = some Sample.attack :=
  ⟨⟨trivial, trivial, trivial, trivial, trivial⟩, rfl⟩

end Genie.Src
