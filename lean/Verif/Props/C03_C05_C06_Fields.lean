import Verif.Props.C31_FixedLists
import Verif.Proof.Edits.Loose
/-!
# C03, C05, C06 for every field of a file

What happens if a field of a record somewhere in a file is set to any integer, float or text, also those that the field cannot hold.
`Spec/Edits.lean` has the places of a file, and the tables of the fields of every class.
-/

namespace Genie
open Layout

theorem F.narrow_lt {d : Nat} (hd : d < 2 ^ 64) : F.narrow d < 2 ^ 32 := by
  have hs := F.sign64_lt hd
  have hm := F.man64_lt d
  by_cases he : F.exp64 d = 2047
  · unfold F.narrow
    simp only [if_pos he]
    split
    · omega
    · split <;> omega
  · cases ho : F.narrowOverflows d with
    | true =>
      unfold F.narrow
      simp only [if_neg he, ho, if_true]
      omega
    | false =>
      have := F.narrow_finite he ho
      omega

theorem F.narrow_not_signalling (d : Nat) : F.isSNaN32 (F.narrow d) = false := by
  have hm := F.man64_lt d
  have key : ∀ s k, k < 2 ^ 23 → (k = 0 ∨ 2 ^ 22 ≤ k) → F.isSNaN32 (s * 2 ^ 31 + 255 * 2 ^ 23 + k) = false := by
    intro s k h1 h2
    have : F.man32 (s * 2 ^ 31 + 255 * 2 ^ 23 + k) = k := by unfold F.man32; omega
    unfold F.isSNaN32
    rw [this]
    rcases h2 with h2 | h2
    · simp [h2]
    · simp [show ¬ k < 2 ^ 22 by omega]
  by_cases he : F.exp64 d = 2047
  · unfold F.narrow
    simp only [if_pos he]
    split
    · exact key _ 0 (by omega) (.inl rfl)
    · split
      · exact key _ _ (by omega) (.inr (by omega))
      · exact key _ _ (by omega) (.inr (by omega))
  · cases ho : F.narrowOverflows d with
    | true =>
      unfold F.narrow
      simp only [if_neg he, ho, if_true]
      exact key _ 0 (by omega) (.inl rfl)
    | false =>
      have := F.narrow_finite he ho
      have h : F.exp32 (F.narrow d) ≠ 255 := by rw [this.1]; unfold F.exp32; omega
      unfold F.isSNaN32
      simp [h]

theorem bytesOfFloat_idem (z : PyFloat) : bytesOfFloat (floatOfBytes (bytesOfFloat z)) = bytesOfFloat z := by
  refine bytesOfFloat_floatOfBytes_clean (bytesOfFloat_length z) ?_
  unfold bytesOfFloat
  rw [leNat_natLE, Nat.mod_eq_of_lt (by have := F.narrow_lt z.bits.isLt; omega)]
  exact F.narrow_not_signalling _

theorem edit_any {v : Version} {d : DatFile} (hd : DatFile.WFAt v d) {n : Node} {p : Place .file n} (hs : p.Stored v) {x : n.Obj}
    (hx : p.get d = some x) {g : β → n.Obj} {it : β → List Item} (hsp : Splits (fun _ => True) (fun b => n.layout v (g b)) it)
    {old : β} (ho : g old = x) (hk : ∀ b, n.Fixed x (g b)) (hver : ∀ b, DatFile.version (p.set d (g b)) = d.version) :
    ∃ pre post, DatFile.toBytes d = .ok (pre ++ layoutBytes (it old) ++ post) ∧
      (∀ b, causes (it b) = [] → DatFile.toBytes (p.set d (g b)) = .ok (pre ++ layoutBytes (it b) ++ post)) ∧
      (∀ b, causes (it b) ≠ [] → ∃ e ∈ causes (it b), DatFile.toBytes (p.set d (g b)) = .error e) := by
  have good := p.good v d x hd hs hx
  obtain ⟨A, B, hAB⟩ := p.splits v d x hd hs hx
  obtain ⟨C, D, hCD⟩ := hsp
  have lay : ∀ b, DatFile.layoutAt v (p.set d (g b)) = (A ++ C) ++ it b ++ (D ++ B) := by
    intro b
    have := hCD b trivial
    simp only at this
    refine (hAB _ (p.fixed d x _ hx (hk b)).1).trans ?_
    rw [this]
    simp only [List.append_assoc]
  have wr : ∀ b, Writes (DatFile.toBytes (p.set d (g b))) ((A ++ C) ++ it b ++ (D ++ B)) := by
    intro b
    rw [← lay]
    exact DatFile.writesAt (by rw [hver]; exact (versionNames_spec hd.version).1)
  have c0 : causes ((A ++ C) ++ it old ++ (D ++ B)) = [] := by
    rw [← lay, ho, good.self]
    exact DatFile.clean hd
  have c1 : causes (A ++ C) = [] ∧ causes (D ++ B) = [] := by
    rw [clean_append, clean_append] at c0
    exact ⟨c0.1.1, c0.2⟩
  have hok : ∀ b, causes (it b) = [] → DatFile.toBytes (p.set d (g b)) =
      .ok (layoutBytes (A ++ C) ++ layoutBytes (it b) ++ layoutBytes (D ++ B)) := by
    intro b hb
    rw [← layoutBytes_append, ← layoutBytes_append]
    exact (wr b).ok_of (by rw [clean_append, clean_append]; exact ⟨⟨c1.1, hb⟩, c1.2⟩)
  refine ⟨layoutBytes (A ++ C), layoutBytes (D ++ B), ?_, hok, fun b hb => ?_⟩
  · have := hok old (by rw [clean_append, clean_append] at c0; exact c0.1.2)
    rw [ho, good.self] at this
    exact this
  · have hc : causes ((A ++ C) ++ it b ++ (D ++ B)) = causes (it b) := by
      rw [causes_append, causes_append, c1.1, c1.2, List.append_nil]
      rfl
    cases hw : DatFile.toBytes (p.set d (g b)) with
    | ok bs => exact absurd (hc ▸ ((wr b).ok bs hw).1) hb
    | error e => exact ⟨e, hc ▸ (wr b).error e hw, rfl⟩

theorem only_cause {w : Py Bytes} {cs : List PyErr} {e : PyErr} (hc : cs = [e]) (h : cs ≠ [] → ∃ e ∈ cs, w = .error e) : w = .error e := by
  subst hc
  obtain ⟨e', he, hw⟩ := h (fun k => (nomatch k))
  rw [hw, List.mem_singleton.1 he]

theorem intFields_version {v : Version} {n : Node} {f : IntField n.Obj} (hf : f ∈ n.intFields v) (p : Place .file n) (d : DatFile)
    {x : n.Obj} (hx : p.get d = some x) (i : Int) : DatFile.version (p.set d (f.set x i)) = d.version := by
  refine set_version_of p d x hx _ fun e x' y' hx' hy' => ?_
  subst e
  cases hx'; cases hy'
  have : ∀ g ∈ Node.intFields v .file, ∀ x i, DatFile.version (g.set x i) = DatFile.version x := by
    repeat (first | exact forall_nil | refine forall_cons (fun _ _ => rfl) ?_)
  exact this _ hf _ i

theorem floatFields_version {v : Version} {n : Node} {f : FloatField n.Obj} (hf : f ∈ n.floatFields v) (p : Place .file n) (d : DatFile)
    {x : n.Obj} (hx : p.get d = some x) (i : PyFloat) : DatFile.version (p.set d (f.set x i)) = d.version := by
  refine set_version_of p d x hx _ fun e x' y' hx' hy' => ?_
  subst e
  cases hx'; cases hy'
  have : ∀ g ∈ Node.floatFields v .file, ∀ x i, DatFile.version (g.set x i) = DatFile.version x := by
    repeat (first | exact forall_nil | refine forall_cons (fun _ _ => rfl) ?_)
  exact this _ hf _ i

theorem textFields_version {v : Version} {n : Node} {f : TextField n.Obj} (hf : f ∈ n.textFields v) (p : Place .file n) (d : DatFile)
    {x : n.Obj} (hx : p.get d = some x) (i : PyStr) : DatFile.version (p.set d (f.set x i)) = d.version := by
  refine set_version_of p d x hx _ fun e x' y' hx' hy' => ?_
  subst e
  cases hx'; cases hy'
  have : ∀ g ∈ Node.textFields v .file, ∀ x i, DatFile.version (g.set x i) = DatFile.version x := by
    repeat (first | exact forall_nil | refine forall_cons (fun _ _ => rfl) ?_)
  exact this _ hf _ i

/-- Any integer field of any record of a file, set to any integer: a value that fits is written into the bytes of the field, any other
one makes the writer raise, always the same exception of the two: `OverflowError`, or `struct.error` in a struct-packed block.
Nothing wraps around. -/
theorem C03_int_field (v : Version) (d : DatFile) (hd : DatFile.WFAt v d) (n : Node) (p : Place .file n) (hs : p.Stored v)
    (x : n.Obj) (hx : p.get d = some x) (f : IntField n.Obj) (hf : f ∈ n.intFields v) :
    ∃ pre post e, (e = .overflowError ∨ e = .structError) ∧
      ∀ i, DatFile.toBytes (p.set d (f.set x i)) =
        if FitsInt f.width f.signed i then .ok (pre ++ intBytes f.width i ++ post) else .error e := by
  have good := p.good v d x hd hs hx
  have ok := Node.intFields_ok v n f hf
  obtain ⟨it, hit, hsp⟩ := ok.splits x good.wf
  obtain ⟨e, he, hc⟩ := hit.cause
  obtain ⟨pre, post, -, h1, h2⟩ := edit_any hd hs hx hsp (ok.self x) (fun i => intFields_fixed v n f hf x i)
    (fun i => intFields_version hf p d hx i)
  refine ⟨pre, post, e, he, fun i => ?_⟩
  have hc := hc i
  split
  · rename_i hi
    rw [if_pos hi] at hc
    rw [h1 i (by simp [causes, hc]), layoutBytes_singleton, hit.bytes]
    rfl
  · rename_i hi
    rw [if_neg hi] at hc
    exact only_cause (by simp [causes, hc]) (h2 i)

/-- Any float field of any record of a file, set to any float: it is written as its nearest single (`bytesOfFloat`, see
`C05_float_write_nearest` and `C05_float_overflow`), except that the struct-packed ones raise `OverflowError` for a number that is too
large.  The file is read back with that single in this field, and everything else as it was. -/
theorem C05_float_field (v : Version) (d : DatFile) (hd : DatFile.WFAt v d) (n : Node) (p : Place .file n) (hs : p.Stored v)
    (x : n.Obj) (hx : p.get d = some x) (f : FloatField n.Obj) (hf : f ∈ n.floatFields v) (y : PyFloat) (hy : f.get x = some y) :
    ∃ (pre post : Bytes) (packed : Bool), ∀ z,
      DatFile.toBytes (p.set d (f.set x z)) =
        (if packed = true ∧ TooLarge z then .error .overflowError else .ok (pre ++ bytesOfFloat z ++ post)) ∧
      ∃ h', DatFile.fromBytes (ByteHandler.new (pre ++ bytesOfFloat z ++ post)) =
        .ok (p.set d (f.set x (floatOfBytes (bytesOfFloat z))), h') := by
  have good := p.good v d x hd hs hx
  have ok := Node.floatFields_ok v n f hf
  obtain ⟨it, hit, hsp⟩ := ok.splits x good.wf y hy
  obtain ⟨pre, post, h0, h1, h2⟩ := edit_any hd hs hx hsp (ok.self x y hy) (fun i => (floatFields_kept v n f hf x i).fixed)
    (fun i => floatFields_version hf p d hx i)
  have hb : ∀ z, layoutBytes [it z] = bytesOfFloat z := fun z => by rw [layoutBytes_singleton, hit.bytes]
  have back : ∀ z, ∃ h', DatFile.fromBytes (ByteHandler.new (pre ++ bytesOfFloat z ++ post)) =
        .ok (p.set d (f.set x (floatOfBytes (bytesOfFloat z))), h') := by
    intro z
    have hz := IsF32_floatOfBytes (bytesOfFloat_length z)
    have hwf : DatFile.WFAt v (p.set d (f.set x (floatOfBytes (bytesOfFloat z)))) :=
      good.wf_set _ (ok.wf x good.wf y hy _ hz) (p.kept d x _ hx (floatFields_kept v n f hf x _)).1
    refine DatFile.reload_of_wf hwf ?_
    have hcl : causes [it (floatOfBytes (bytesOfFloat z))] = [] := by
      have c := DatFile.clean hwf
      obtain ⟨A, B, -, -, hAB⟩ := causes_of_splits hd hs hx
      obtain ⟨C, D, hCD⟩ := hsp
      have h3 := hCD (floatOfBytes (bytesOfFloat z)) trivial
      simp only at h3
      rw [hAB _ (p.kept d x _ hx (floatFields_kept v n f hf x _)).1, h3] at c
      simp only [clean_append] at c
      exact c.1.2.1.2
    rw [h1 _ hcl, hb, bytesOfFloat_idem]
  rcases hit.cause with hc | hc
  · refine ⟨pre, post, false, fun z => ⟨?_, back z⟩⟩
    rw [if_neg (fun h => (nomatch h.1)), h1 z (by simp [causes, hc]), hb]
  · refine ⟨pre, post, true, fun z => ⟨?_, back z⟩⟩
    have hc := hc z
    by_cases ht : TooLarge z
    · rw [if_pos ⟨rfl, ht⟩]
      rw [if_pos ht] at hc
      exact only_cause (by simp [causes, hc]) (h2 z)
    · rw [if_neg (fun h => ht h.2), h1 z (by simp only [causes, List.filterMap_cons, hc, if_neg ht, List.filterMap_nil]), hb]

/-- Any text of any record of a file, set to any text: one with a lone surrogate raises `UnicodeEncodeError`, one that takes more than
65535 bytes raises `OverflowError`, any other one is written. -/
theorem C06_text_field (v : Version) (d : DatFile) (hd : DatFile.WFAt v d) (n : Node) (p : Place .file n) (hs : p.Stored v)
    (x : n.Obj) (hx : p.get d = some x) (f : TextField n.Obj) (hf : f ∈ n.textFields v) :
    ∃ pre post, ∀ s, DatFile.toBytes (p.set d (f.set x s)) =
      if ∀ c ∈ s, IsScalar c then
        if utf8Len s ≤ 65535 then .ok (pre ++ textBytes s ++ post) else .error .overflowError
      else .error .unicodeEncodeError := by
  have good := p.good v d x hd hs hx
  have ok := Node.textFields_ok v n f hf
  obtain ⟨pre, post, -, h1, h2⟩ := edit_any hd hs hx (ok.splits x good.wf) (ok.self x) (fun i => (textFields_kept v n f hf x i).fixed)
    (fun i => textFields_version hf p d hx i)
  refine ⟨pre, post, fun s => ?_⟩
  have hc : (Item.text s).cause = if ∀ c ∈ s, IsScalar c then (if utf8Len s ≤ 65535 then none else some .overflowError)
    else some .unicodeEncodeError := rfl
  have hcs : causes (text s) = (Item.text s).cause.toList := by
    unfold text causes
    rw [List.filterMap_cons]
    cases (Item.text s).cause <;> rfl
  rw [hc] at hcs
  split
  · rename_i hsc
    rw [if_pos hsc] at hcs
    split
    · rename_i hl
      rw [if_pos hl] at hcs
      rw [h1 s hcs]
      simp [text, layoutBytes_singleton, Item.bytes, textBytes]
    · rename_i hl
      rw [if_neg hl] at hcs
      exact only_cause hcs (h2 s)
  · rename_i hsc
    rw [if_neg hsc] at hcs
    exact only_cause hcs (h2 s)

theorem elemLists_version {v : Version} {n : Node} {f : ListField n.Obj} (hf : f ∈ n.elemLists v) (p : Place .file n) (d : DatFile)
    {x : n.Obj} (hx : p.get d = some x) (l : List f.Elem) : DatFile.version (p.set d (f.set x l)) = d.version := by
  refine set_version_of p d x hx _ fun e x' y' hx' hy' => ?_
  subst e
  cases hx'; cases hy'
  have : ∀ g ∈ Node.elemLists v .file, ∀ x l, DatFile.version (g.set x l) = DatFile.version x := by
    refine forall_append (forall_append (fun f hf => ?_) (fun f hf => ?_)) ?_
    · obtain ⟨g, hg, rfl⟩ := List.mem_map.1 hf
      cases hg
    · obtain ⟨g, hg, rfl⟩ := List.mem_map.1 hf
      have : ∀ g ∈ Node.countedLists v .file, ∀ x l, DatFile.version (g.2.set x l) = DatFile.version x := by
        repeat (first | exact forall_nil | refine forall_cons (fun _ _ => rfl) ?_)
      exact this g hg
    · exact forall_cons (fun _ _ => rfl) (forall_cons (fun _ _ => rfl) forall_nil)
  exact this _ hf _ l

/-- The elements of all lists of a record: an element is set to anything.  If all of it can be written, it is; if some of it does not
fit, the writer raises what one of these parts raises. -/
theorem C03_list_element (v : Version) (d : DatFile) (hd : DatFile.WFAt v d) (n : Node) (p : Place .file n) (hs : p.Stored v)
    (x : n.Obj) (hx : p.get d = some x) (f : ListField n.Obj) (hf : f ∈ n.elemLists v)
    (k : Nat) (hlt : k < (f.get x).length) :
    ∃ pre post, ∀ e',
      ((∀ i ∈ f.items e', i.cause = none) →
        DatFile.toBytes (p.set d (f.set x ((f.get x).set k e'))) = .ok (pre ++ layoutBytes (f.items e') ++ post)) ∧
      ((∃ i ∈ f.items e', i.cause ≠ none) → ∃ i ∈ f.items e', ∃ err, i.cause = some err ∧
        DatFile.toBytes (p.set d (f.set x ((f.get x).set k e'))) = .error err) := by
  have good := p.good v d x hd hs hx
  have ok := Node.elemLists_ok v n f hf
  obtain ⟨pre, post, -, h1, h2⟩ := edit_any hd hs hx (ok.splits x good.wf k hlt)
    (old := (f.get x)[k]) (by rw [set_self (List.getElem?_eq_getElem hlt), ok.self]) (fun e => elemLists_fixed v n f hf x k e)
    (fun e => elemLists_version hf p d hx _)
  refine ⟨pre, post, fun e' => ⟨fun h => h1 e' (causes_eq_nil.2 h), fun ⟨i, hi, hc⟩ => ?_⟩⟩
  obtain ⟨err, hm, hw⟩ := h2 e' (fun h => hc (causes_eq_nil.1 h i hi))
  obtain ⟨j, hj, hjc⟩ := mem_causes.1 hm
  exact ⟨j, hj, err, hjc, hw⟩

/-! ## A record alone -/

theorem Node.WF_of_class {c : RecordClass} {v : Version} {x : c.Obj} (hx : c.WF v x) : Node.WF v (.record c) x := by
  by_cases hc : c = .Creatable
  · subst hc; exact ⟨_, hx⟩
  · exact (Node.WF_record hc v x).2 hx

theorem edit_any_alone {v : Version} {c : RecordClass} {x : c.Obj} (hx : c.WF v x) {g : β → c.Obj} {it : β → List Item}
    (hsp : Splits (fun _ => True) (fun b => c.layout v (g b)) it) {old : β} (ho : g old = x) :
    ∃ pre post, (∀ b, causes (it b) = [] → c.toBytes v (g b) = .ok (pre ++ layoutBytes (it b) ++ post)) ∧
      (∀ b, causes (it b) ≠ [] → ∃ e ∈ causes (it b), c.toBytes v (g b) = .error e) := by
  obtain ⟨C, D, hCD⟩ := hsp
  have lay : ∀ b, c.layout v (g b) = C ++ it b ++ D := fun b => hCD b trivial
  have wr : ∀ b, Writes (c.toBytes v (g b)) (C ++ it b ++ D) := fun b => lay b ▸ c.writes v (g b)
  have c0 : causes (C ++ it old ++ D) = [] := by rw [← lay, ho]; exact RecordClass.clean c hx
  have c1 : causes C = [] ∧ causes D = [] := by
    rw [clean_append, clean_append] at c0
    exact ⟨c0.1.1, c0.2⟩
  refine ⟨layoutBytes C, layoutBytes D, fun b hb => ?_, fun b hb => ?_⟩
  · rw [← layoutBytes_append, ← layoutBytes_append]
    exact (wr b).ok_of (by rw [clean_append, clean_append]; exact ⟨⟨c1.1, hb⟩, c1.2⟩)
  · have hc : causes (C ++ it b ++ D) = causes (it b) := by
      rw [causes_append, causes_append, c1.1, c1.2, List.append_nil]
      rfl
    cases hw : c.toBytes v (g b) with
    | ok bs => exact absurd (hc ▸ ((wr b).ok bs hw).1) hb
    | error e => exact ⟨e, hc ▸ (wr b).error e hw, rfl⟩

/-- `to_bytes` of a record alone: the same for its integer fields. -/
theorem C03_int_field_alone (v : Version) (c : RecordClass) (x : c.Obj) (hx : c.WF v x) (f : IntField c.Obj)
    (hf : f ∈ Node.intFields v (.record c)) :
    ∃ pre post e, (e = .overflowError ∨ e = .structError) ∧
      ∀ i, c.toBytes v (f.set x i) = if FitsInt f.width f.signed i then .ok (pre ++ intBytes f.width i ++ post) else .error e := by
  have ok := Node.intFields_ok v (.record c) f hf
  obtain ⟨it, hit, hsp⟩ := ok.splits x (Node.WF_of_class hx)
  obtain ⟨e, he, hc⟩ := hit.cause
  obtain ⟨pre, post, h1, h2⟩ := edit_any_alone hx hsp (ok.self x)
  refine ⟨pre, post, e, he, fun i => ?_⟩
  have hc := hc i
  split
  · rename_i hi
    rw [if_pos hi] at hc
    rw [h1 i (by simp [causes, hc]), layoutBytes_singleton, hit.bytes]
    rfl
  · rename_i hi
    rw [if_neg hi] at hc
    exact only_cause (by simp [causes, hc]) (h2 i)

/-- … and for its float fields. -/
theorem C05_float_field_alone (v : Version) (c : RecordClass) (x : c.Obj) (hx : c.WF v x) (f : FloatField c.Obj)
    (hf : f ∈ Node.floatFields v (.record c)) (y : PyFloat) (hy : f.get x = some y) :
    ∃ (pre post : Bytes) (packed : Bool), ∀ z, c.toBytes v (f.set x z) =
      if packed = true ∧ TooLarge z then .error .overflowError else .ok (pre ++ bytesOfFloat z ++ post) := by
  have ok := Node.floatFields_ok v (.record c) f hf
  obtain ⟨it, hit, hsp⟩ := ok.splits x (Node.WF_of_class hx) y hy
  obtain ⟨pre, post, h1, h2⟩ := edit_any_alone hx hsp (ok.self x y hy)
  have hb : ∀ z, layoutBytes [it z] = bytesOfFloat z := fun z => by rw [layoutBytes_singleton, hit.bytes]
  rcases hit.cause with hc | hc
  · refine ⟨pre, post, false, fun z => ?_⟩
    rw [if_neg (fun h => (nomatch h.1)), h1 z (by simp [causes, hc]), hb]
  · refine ⟨pre, post, true, fun z => ?_⟩
    have hc := hc z
    by_cases ht : TooLarge z
    · rw [if_pos ⟨rfl, ht⟩]
      rw [if_pos ht] at hc
      exact only_cause (by simp [causes, hc]) (h2 z)
    · rw [if_neg (fun h => ht h.2), h1 z (by simp only [causes, List.filterMap_cons, hc, if_neg ht, List.filterMap_nil]), hb]

/-! ## Examples -/

/-- The amount of the first attack of a unit of the sample, set too large. -/
example (v : Version) (hv : v ≠ .UNDEFINED) : ∃ e, DatFile.toBytes (Sample.attackPlace.set (Sample.datFile v)
    { Sample.attack with amount := 32768 }) = .error e ∧ (e = .overflowError ∨ e = .structError) := by
  obtain ⟨pre, post, e, he, h⟩ := C03_int_field v _ (Sample.datFile_wf v hv) _ Sample.attackPlace
    ⟨trivial, trivial, trivial, trivial, trivial⟩ Sample.attack rfl
    ⟨"amount", 2, true, fun (x : Genie.AttackOrArmor) => x.amount, fun x y => { x with amount := y }⟩
    (.tail _ (.head _))
  have := h 32768
  rw [if_neg (show ¬ FitsInt 2 true 32768 by decide)] at this
  exact ⟨e, this, he⟩

end Genie
