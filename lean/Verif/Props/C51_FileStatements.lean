import Verif.Props.C03_C05_C06_Fields
import Verif.Props.C47_AnyObjects
import Verif.Props.C32_ListEdits
import Verif.Proof.Edits.Programs
import Verif.Proof.Edits.SizedFields
/-!
# C51 — Python statements on a loaded file, and the edits of its value

C27, C31, C32 and C03 say what the bytes of a file are after a field of a record somewhere in it has another value.  Here is why a statement
such as `data.civs[1].units[4].type_50.attacks[0].amount = 7` on loaded objects is such an edit: `Place.path` is the expression, the tables of
`Spec/EditObjects.lean` have every attribute of every class.
-/

namespace Genie
open ObjTree

/-! ## The tables are complete -/

/-- An object of the file has exactly the attributes of the table, in this order, with the values that the table says. -/
theorem C51_every_attribute (n : Node) (x : n.Obj) :
    ∃ c, n.object x = .obj c (n.attrs.map fun A => (lit A.name, A.object (A.get x))) := n.object_attrs x

/-- An attribute that holds a list is in the table of lists, except `UnitHeaders.task_list`, which may be `None`. -/
theorem C51_every_list (n : Node) (x : n.Obj) (a : PyStr) (ts : List ObjTree) (h : (n.object x).get [.attr a] = some (.list ts)) :
    (∃ L ∈ n.listAttrs, lit L.name = a) ∨ (n = .record .UnitHeaders ∧ a = lit "task_list") := by
  obtain ⟨c, hc⟩ := n.object_attrs x
  rw [hc] at h
  have key : ∀ As : List (Attr n.Obj), (∀ A ∈ As, A ∈ n.attrs) →
      ∀ u, attrOf a (As.map fun A => (lit A.name, A.object (A.get x))) = some u → ∃ A ∈ n.attrs, lit A.name = a ∧ A.object (A.get x) = u := by
    intro As
    induction As with
    | nil => intro _ u hu; cases hu
    | cons A As ih =>
      intro hm u hu
      simp only [List.map_cons, attrOf] at hu
      split at hu
      · rename_i e; cases hu; exact ⟨A, hm A (.head _), e, rfl⟩
      · exact ih (fun B hB => hm B (.tail _ hB)) u hu
  simp only [ObjTree.get, child] at h
  cases e : attrOf a (n.attrs.map fun A => (lit A.name, A.object (A.get x))) with
  | none => rw [e] at h; cases h
  | some u =>
    rw [e] at h
    have h : u = .list ts := Option.some.inj h
    subst h
    obtain ⟨A, hA, hn, ho⟩ := key _ (fun _ h => h) _ e
    rcases n.attrs_lists A hA with ⟨L, hL, hLn⟩ | hno | ⟨hn1, hn2⟩
    · exact .inl ⟨L, hL, by rw [hLn, hn]⟩
    · exact absurd ho (hno _ _)
    · exact .inr ⟨hn1, by rw [← hn, hn2]⟩

/-- The object at the place is the record that is there. -/
theorem C51_place (n : Node) (p : Place .file n) (d : DatFile) (x : n.Obj) (hx : p.get d = some x) :
    (d.object false).eval p.path = .ok (n.object x) := ObjTree.eval_get.2 (p.shown d x hx).1

/-! ## Statements -/

/-- Statements one after the other, on objects that have the value of a file: they are executed, and then the objects have the value of the
edited file. -/
theorem C51_object (H : Heap) (o : HVal) (t : ObjTree) (fp : List Nat) (r : Rep H o t fp) (nd : fp.Nodup) (d : DatFile)
    (hc : Carries t (d.object false)) (es : List FileEdit) (d' : DatFile) (ha : FileEdit.applyAll es d = some d') (s : ByteHandler) :
    ∃ H' t' fp', runEdits o (es.map FileEdit.python) H s = .ok ((), H', s) ∧ Rep H' o t' fp' ∧ fp'.Nodup ∧ Carries t' (d'.object false) := by
  obtain ⟨t', h1, h2⟩ := FileEdit.simulatesAll es ha hc
  have main := C45_statements H o t fp r nd (es.map FileEdit.python) s
  rw [h1] at main
  obtain ⟨H', fp', h3, r', nd', -⟩ := main
  exact ⟨H', t', fp', h3, r', nd', h2⟩

/-- Load a file, execute statements on it, write it: the bytes of the edited value.  (`5 ≤ depth`: room on the stack for five calls.) -/
theorem C51_load_edit_save (H H' : Heap) (s s' s1 : ByteHandler) (o : HVal) (d : DatFile) (h : DatFile.build H s = .ok (o, H', s'))
    (hd : DatFile.fromBytes s = .ok (d, s')) (es : List FileEdit) (d' : DatFile) (ha : FileEdit.applyAll es d = some d') (hs : d'.Sized)
    (depth : Nat) (hn : 5 ≤ depth) (ver : Version) :
    ∃ H'', runEdits o (es.map FileEdit.python) H' s1 = .ok ((), H'', s1) ∧ W.toBytes H'' depth o ver = d'.toBytes := by
  obtain ⟨t', h1, h2⟩ := FileEdit.simulatesAll es ha (DatFile.converts _ d).carries
  exact (C47_load_edit_save H H' s s' s1 o d h hd _ depth hn ver).2 t' d' h1 h2 hs

/-- A place that is not there: the statement raises `IndexError`, `AttributeError` or `TypeError`. -/
theorem C51_missing (H H' : Heap) (s s' s1 : ByteHandler) (o : HVal) (d : DatFile) (h : DatFile.build H s = .ok (o, H', s'))
    (hd : DatFile.fromBytes s = .ok (d, s')) (es : List FileEdit) (ha : FileEdit.applyAll es d = Option.none) (hr : FileEdit.RightAll es d) :
    ∃ e, Absent e ∧ runEdits o (es.map FileEdit.python) H' s1 = .error e := by
  obtain ⟨e, h1, h2⟩ := FileEdit.raisesAll es ha hr (DatFile.converts _ d).carries
  exact ⟨e, h1, (C47_load_edit_save H H' s s' s1 o d h hd _ 5 (Nat.le_refl _) .UNDEFINED).1 e h2⟩

/-- The whole program: parse `src`, execute the statements, save to `dst`.  What it does to the disk, at any crash or fault, is what saving
the edited value does. -/
theorem C51_program (z : Zlib) (env : Environment) (fs : FileSystem) (H : Heap) (depth : Nat) (hn : 5 ≤ depth) (src dst : Path) (d : DatFile)
    (hp : DatFile.parse z fs src = .returned d) (es : List FileEdit) :
    (∀ d', FileEdit.applyAll es d = some d' → d'.Sized →
      editObject (fun o => runEdits o (es.map FileEdit.python)) z env fs H depth src dst = DatFile.save z env fs d' dst) ∧
    (FileEdit.applyAll es d = Option.none → FileEdit.RightAll es d →
      ∃ e, Absent e ∧ editObject (fun o => runEdits o (es.map FileEdit.python)) z env fs H depth src dst = (fs, .raised e)) := by
  have main := C47_any_program z env fs H depth src dst (es.map FileEdit.python)
  rw [hp] at main
  dsimp only at main
  constructor
  · intro d' ha hs
    obtain ⟨t', h1, h2⟩ := FileEdit.simulatesAll es ha (DatFile.converts d.old d).carries
    rw [h1] at main
    obtain ⟨H', o, fp, r, -, he⟩ := main
    rw [he, C47_save_file z env fs H' o t' fp r d' h2 hs depth hn dst]
  · intro ha hr
    obtain ⟨e, h1, h2⟩ := FileEdit.raisesAll es ha hr (DatFile.converts d.old d).carries
    rw [h2] at main
    exact ⟨e, h1, main⟩

/-! ## One assignment, down to the bytes -/

theorem assign_at {H H' : Heap} {s s' : ByteHandler} {o : HVal} {d : DatFile} (h : DatFile.build H s = .ok (o, H', s'))
    (hd : DatFile.fromBytes s = .ok (d, s')) {n : Node} {p : Place .file n} {x y : n.Obj} (hx : p.get d = some x) {nm : PyStr} {a a' u : ObjTree}
    (hf : FieldAt (n.object x) (n.object y) nm a a') (hu : Carries u a') (hs : n.Sized x → n.Sized y) (s1 : ByteHandler) {depth : Nat}
    (hn : 5 ≤ depth) (ver : Version) :
    ∃ H'', runEdits o [⟨p.path, .setAttr nm, u⟩] H' s1 = .ok ((), H'', s1) ∧ W.toBytes H'' depth o ver = DatFile.toBytes (p.set d y) := by
  obtain ⟨t', h1, h2⟩ := setAttr_at hx (DatFile.converts (decide (s'.version.num < 84)) d).carries hf hu
  have hsd : d.Sized := (C13_parsed_wellformed _ _ _ hd).sized
  exact (C47_load_edit_save H H' s s' s1 o d h hd _ depth hn ver).2 t' _ h1 h2 (p.sized_set d y hsd (hs (p.sized_get d x hsd hx)))

/-- `data….f = i` for any integer field of any record of a loaded file and any integer: afterwards `to_bytes` gives the old bytes with those
of `i` in place of the old ones, or raises if `i` does not fit. -/
theorem C51_set_int (H H' : Heap) (s s' s1 : ByteHandler) (o : HVal) (d : DatFile) (h : DatFile.build H s = .ok (o, H', s'))
    (hd : DatFile.fromBytes s = .ok (d, s')) (n : Node) (p : Place .file n) (hs : p.Stored s'.version) (x : n.Obj) (hx : p.get d = some x)
    (f : IntField n.Obj) (hf : f ∈ n.intFields s'.version)
    (depth : Nat) (hn : 5 ≤ depth) (ver : Version) :
    ∃ pre post e, (e = .overflowError ∨ e = .structError) ∧
      W.toBytes H' depth o ver = .ok (pre ++ intBytes f.width (f.get x) ++ post) ∧
      ∀ i, ∃ H'', runEdits o [⟨p.path, .setAttr (lit f.name), .int i⟩] H' s1 = .ok ((), H'', s1) ∧
        W.toBytes H'' depth o ver = if FitsInt f.width f.signed i then .ok (pre ++ intBytes f.width i ++ post) else .error e := by
  have hw : DatFile.WFAt s'.version d := C13_parsed_wellformed _ _ _ hd
  obtain ⟨pre, post, e, he, main⟩ := C03_int_field s'.version d hw n p hs x hx f hf
  have shown := Node.intFields_shown s'.version n f hf
  refine ⟨pre, post, e, he, ?_, fun i => ?_⟩
  · obtain ⟨d1, bs, hd1, hb, hw1, -⟩ := C47_save_loaded H H' s s' o h depth hn ver
    rw [hd] at hd1
    have e1 : d = d1 := (Prod.mk.inj (Except.ok.inj hd1)).1
    subst e1
    have good := p.good s'.version d x hw hs hx
    have ok := Node.intFields_ok s'.version n f hf
    have := main (f.get x)
    rw [ok.self, good.self, hb] at this
    rw [hw1]
    split at this
    · exact this
    · cases this
  · obtain ⟨H'', h1, h2⟩ := assign_at h hd hx (shown x i) (.int i) (intFields_sized _ n f hf x i) s1 hn ver
    exact ⟨H'', h1, by rw [h2, main i]⟩

/-- `data….f = z` for any float field and any float, or `int` that `float(…)` turns into it. -/
theorem C51_set_float (H H' : Heap) (s s' s1 : ByteHandler) (o : HVal) (d : DatFile) (h : DatFile.build H s = .ok (o, H', s'))
    (hd : DatFile.fromBytes s = .ok (d, s')) (n : Node) (p : Place .file n) (hs : p.Stored s'.version) (x : n.Obj) (hx : p.get d = some x)
    (f : FloatField n.Obj) (hf : f ∈ n.floatFields s'.version) (y : PyFloat) (hy : f.get x = some y) (depth : Nat) (hn : 5 ≤ depth) (ver : Version) :
    ∃ (pre post : Bytes) (packed : Bool), ∀ u z, Carries u (.float z) →
      ∃ H'', runEdits o [⟨p.path, .setAttr (lit f.name), u⟩] H' s1 = .ok ((), H'', s1) ∧
        W.toBytes H'' depth o ver = if packed = true ∧ TooLarge z then .error .overflowError else .ok (pre ++ bytesOfFloat z ++ post) := by
  have hw : DatFile.WFAt s'.version d := C13_parsed_wellformed _ _ _ hd
  obtain ⟨pre, post, packed, main⟩ := C05_float_field s'.version d hw n p hs x hx f hf y hy
  refine ⟨pre, post, packed, fun u z hu => ?_⟩
  obtain ⟨a, ha, -⟩ := Node.floatFields_shown s'.version n f hf x z
  obtain ⟨H'', h1, h2⟩ := assign_at h hd hx ha hu (floatFields_sized _ n f hf x z) s1 hn ver
  exact ⟨H'', h1, by rw [h2, (main z).1]⟩

/-- `data….f = 'text'` for any text field and any text. -/
theorem C51_set_text (H H' : Heap) (s s' s1 : ByteHandler) (o : HVal) (d : DatFile) (h : DatFile.build H s = .ok (o, H', s'))
    (hd : DatFile.fromBytes s = .ok (d, s')) (n : Node) (p : Place .file n) (hs : p.Stored s'.version) (x : n.Obj) (hx : p.get d = some x)
    (f : TextField n.Obj) (hf : f ∈ n.textFields s'.version) (depth : Nat) (hn : 5 ≤ depth) (ver : Version) :
    ∃ pre post, ∀ txt, ∃ H'', runEdits o [⟨p.path, .setAttr (lit f.name), .str txt⟩] H' s1 = .ok ((), H'', s1) ∧
      W.toBytes H'' depth o ver =
        if ∀ c ∈ txt, IsScalar c then
          if utf8Len txt ≤ 65535 then .ok (pre ++ textBytes txt ++ post) else .error .overflowError
        else .error .unicodeEncodeError := by
  have hw : DatFile.WFAt s'.version d := C13_parsed_wellformed _ _ _ hd
  obtain ⟨pre, post, main⟩ := C06_text_field s'.version d hw n p hs x hx f hf
  refine ⟨pre, post, fun txt => ?_⟩
  obtain ⟨H'', h1, h2⟩ := assign_at h hd hx (Node.textFields_shown s'.version n f hf x txt) (.str txt) (textFields_sized _ n f hf x txt) s1 hn ver
  exact ⟨H'', h1, by rw [h2, main txt]⟩

/-! ## Lists that may change their length -/

/-- `L` is a list whose number of elements is stored, at most `max`; `ok` says which elements can be stored. -/
def StoredList (v : Version) (n : Node) (L : ListAttr n.Obj) (max : Nat) (ok : L.Elem → Prop) : Prop :=
  ∃ items, (max, ⟨L.name, L.Elem, L.get, L.set, items, ok⟩) ∈ n.countedLists v ∨ (max, ⟨L.name, L.Elem, L.get, L.set, items, ok⟩) ∈ n.slotLists v

theorem StoredList.edit {v : Version} {d : DatFile} (hd : DatFile.WFAt v d) {n : Node} {p : Place .file n} (hs : p.Stored v) {x : n.Obj}
    (hx : p.get d = some x) {L : ListAttr n.Obj} {max : Nat} {ok : L.Elem → Prop} (hL : StoredList v n L max ok) {l : List L.Elem}
    (hk : n = .record .Creatable → n.Kept x (L.set x l)) (hl : l.length ≤ max) (ho : ∀ e ∈ l, ok e) :
    ∃ bs h', DatFile.toBytes (p.set d (L.set x l)) = .ok bs ∧ DatFile.fromBytes (ByteHandler.new bs) = .ok (p.set d (L.set x l), h') := by
  obtain ⟨items, hf | hf⟩ := hL
  · exact (C32_counted_list v d hd n p hs x hx max _ hf l hk).2 ⟨hl, ho⟩
  · exact (C32_slot_list v d hd n p hs x hx max _ hf l).2 ⟨hl, ho⟩

theorem StoredList.old {v : Version} {n : Node} {x : n.Obj} (hx : n.WF v x) {L : ListAttr n.Obj} {max : Nat} {ok : L.Elem → Prop}
    (hL : StoredList v n L max ok) : UpTo max ok (L.get x) := by
  obtain ⟨items, hf | hf⟩ := hL
  · exact (Node.countedLists_ok v n _ hf).old x hx
  · exact (Node.slotLists_ok v n _ hf).old x hx

theorem list_statement {H H' : Heap} {s s' : ByteHandler} {o : HVal} {d : DatFile} (h : DatFile.build H s = .ok (o, H', s'))
    (hd : DatFile.fromBytes s = .ok (d, s')) {n : Node} {p : Place .file n} (hs : p.Stored s'.version) {x : n.Obj} (hx : p.get d = some x)
    {L : ListAttr n.Obj} {max : Nat} {ok : L.Elem → Prop} (hL : StoredList s'.version n L max ok) {l : List L.Elem}
    (hk : n = .record .Creatable → n.Kept x (L.set x l)) (hl : l.length ≤ max) (ho : ∀ e ∈ l, ok e) (s1 : ByteHandler) {depth : Nat} (hn : 5 ≤ depth)
    (ver : Version) {e : FileEdit} (he : e.apply d = some (p.set d (L.set x l))) :
    ∃ H'' bs h', runEdits o [e.python] H' s1 = .ok ((), H'', s1) ∧ W.toBytes H'' depth o ver = .ok bs ∧
      DatFile.fromBytes (ByteHandler.new bs) = .ok (p.set d (L.set x l), h') := by
  obtain ⟨bs, h', hb, hr⟩ := hL.edit (C13_parsed_wellformed _ _ _ hd) hs hx hk hl ho
  obtain ⟨H'', h1, h2⟩ := C51_load_edit_save H H' s s' s1 o d h hd [e] _ (by rw [FileEdit.applyAll, he]; rfl)
    (C13_parsed_wellformed _ _ _ hr).sized depth hn ver
  exact ⟨H'', bs, h', h1, by rw [h2, hb], hr⟩

/-- `data….f.append(e)`, with room for one more element and an element that can be stored: the file written then has the element at the end of
the list, and everything else as it was. -/
theorem C51_append (H H' : Heap) (s s' s1 : ByteHandler) (o : HVal) (d : DatFile) (h : DatFile.build H s = .ok (o, H', s'))
    (hd : DatFile.fromBytes s = .ok (d, s')) (n : Node) (hc : n ≠ .record .Creatable) (p : Place .file n) (hs : p.Stored s'.version) (x : n.Obj)
    (hx : p.get d = some x) (L : ListAttr n.Obj) (hL : L ∈ n.listAttrs) (max : Nat) (ok : L.Elem → Prop) (hok : StoredList s'.version n L max ok)
    (hlt : (L.get x).length < max) (u : ObjTree) (e : L.Elem) (he : ok e) (hu : Carries u (L.object e)) (depth : Nat) (hn : 5 ≤ depth)
    (ver : Version) :
    ∃ H'' bs h', runEdits o [⟨p.path ++ [.attr (lit L.name)], .append, u⟩] H' s1 = .ok ((), H'', s1) ∧ W.toBytes H'' depth o ver = .ok bs ∧
      DatFile.fromBytes (ByteHandler.new bs) = .ok (p.set d (L.set x (L.get x ++ [e])), h') := by
  have old := hok.old (p.good _ d x (C13_parsed_wellformed _ _ _ hd) hs hx).wf
  refine list_statement h hd hs hx hok (fun hn => absurd hn hc) (by simp; omega) (fun b hb => ?_) s1 hn ver (e := .append p L hL u e hu)
    (by simp only [FileEdit.apply, hx, Option.map_some])
  rcases List.mem_append.1 hb with hb | hb
  · exact old.2 b hb
  · rw [List.mem_singleton.1 hb]; exact he

/-- `data….f.pop()` on a list that is not empty: the file written then has all elements but the last. -/
theorem C51_pop (H H' : Heap) (s s' s1 : ByteHandler) (o : HVal) (d : DatFile) (h : DatFile.build H s = .ok (o, H', s'))
    (hd : DatFile.fromBytes s = .ok (d, s')) (n : Node) (hc : n ≠ .record .Creatable) (p : Place .file n) (hs : p.Stored s'.version) (x : n.Obj)
    (hx : p.get d = some x) (L : ListAttr n.Obj) (hL : L ∈ n.listAttrs) (max : Nat) (ok : L.Elem → Prop) (hok : StoredList s'.version n L max ok)
    (hne : L.get x ≠ []) (depth : Nat) (hn : 5 ≤ depth) (ver : Version) :
    ∃ H'' bs h', runEdits o [⟨p.path ++ [.attr (lit L.name)], .pop, .none⟩] H' s1 = .ok ((), H'', s1) ∧ W.toBytes H'' depth o ver = .ok bs ∧
      DatFile.fromBytes (ByteHandler.new bs) = .ok (p.set d (L.set x (L.get x).dropLast), h') := by
  have old := hok.old (p.good _ d x (C13_parsed_wellformed _ _ _ hd) hs hx).wf
  exact list_statement h hd hs hx hok (fun hn => absurd hn hc) (by have := old.1; simp; omega)
    (fun b hb => old.2 b (List.dropLast_subset _ hb)) s1 hn ver (e := .pop p L hL)
    (by simp only [FileEdit.apply, hx, Option.bind_some, if_pos (List.length_pos_iff.2 hne)])

/-- `data….f[k] = e` within the list: the file written then has `e` there. -/
theorem C51_set_item (H H' : Heap) (s s' s1 : ByteHandler) (o : HVal) (d : DatFile) (h : DatFile.build H s = .ok (o, H', s'))
    (hd : DatFile.fromBytes s = .ok (d, s')) (n : Node) (hc : n ≠ .record .Creatable) (p : Place .file n) (hs : p.Stored s'.version) (x : n.Obj)
    (hx : p.get d = some x) (L : ListAttr n.Obj) (hL : L ∈ n.listAttrs) (max : Nat) (ok : L.Elem → Prop) (hok : StoredList s'.version n L max ok)
    (k : Nat) (hlt : k < (L.get x).length) (u : ObjTree) (e : L.Elem) (he : ok e) (hu : Carries u (L.object e)) (depth : Nat) (hn : 5 ≤ depth)
    (ver : Version) :
    ∃ H'' bs h', runEdits o [⟨p.path ++ [.attr (lit L.name)], .setItem k, u⟩] H' s1 = .ok ((), H'', s1) ∧ W.toBytes H'' depth o ver = .ok bs ∧
      DatFile.fromBytes (ByteHandler.new bs) = .ok (p.set d (L.set x ((L.get x).set k e)), h') := by
  have old := hok.old (p.good _ d x (C13_parsed_wellformed _ _ _ hd) hs hx).wf
  refine list_statement h hd hs hx hok (fun hn => absurd hn hc) (by rw [List.length_set]; exact old.1) (fun b hb => ?_) s1 hn ver
    (e := .setItem p L hL k u e hu) (by simp only [FileEdit.apply, hx, Option.bind_some, if_pos hlt])
  rcases List.mem_or_eq_of_mem_set hb with hb | rfl
  · exact old.2 b hb
  · exact he

/-- `data….f.insert(k, e)`, with room for one more element and an element that can be stored: the file written then has the element at that
position (or at the end, if the list is not that long), and everything else as it was. -/
theorem C51_insert (H H' : Heap) (s s' s1 : ByteHandler) (o : HVal) (d : DatFile) (h : DatFile.build H s = .ok (o, H', s'))
    (hd : DatFile.fromBytes s = .ok (d, s')) (n : Node) (hc : n ≠ .record .Creatable) (p : Place .file n) (hs : p.Stored s'.version) (x : n.Obj)
    (hx : p.get d = some x) (L : ListAttr n.Obj) (hL : L ∈ n.listAttrs) (max : Nat) (ok : L.Elem → Prop) (hok : StoredList s'.version n L max ok)
    (hlt : (L.get x).length < max) (k : Nat) (u : ObjTree) (e : L.Elem) (he : ok e) (hu : Carries u (L.object e)) (depth : Nat) (hn : 5 ≤ depth)
    (ver : Version) :
    ∃ H'' bs h', runEdits o [⟨p.path ++ [.attr (lit L.name)], .insert k, u⟩] H' s1 = .ok ((), H'', s1) ∧ W.toBytes H'' depth o ver = .ok bs ∧
      DatFile.fromBytes (ByteHandler.new bs) = .ok (p.set d (L.set x ((L.get x).take k ++ [e] ++ (L.get x).drop k)), h') := by
  have old := hok.old (p.good _ d x (C13_parsed_wellformed _ _ _ hd) hs hx).wf
  refine list_statement h hd hs hx hok (fun hn => absurd hn hc) (by simp; omega) (fun b hb => ?_) s1 hn ver (e := .insert p L hL k u e hu)
    (by simp only [FileEdit.apply, hx, Option.map_some])
  rcases List.mem_append.1 hb with hb | hb
  · rcases List.mem_append.1 hb with hb | hb
    · exact old.2 b (List.mem_of_mem_take hb)
    · rw [List.mem_singleton.1 hb]; exact he
  · exact old.2 b (List.mem_of_mem_drop hb)

/-- `del data….f[k]` within the list: the file written then has all elements but that one. -/
theorem C51_del_item (H H' : Heap) (s s' s1 : ByteHandler) (o : HVal) (d : DatFile) (h : DatFile.build H s = .ok (o, H', s'))
    (hd : DatFile.fromBytes s = .ok (d, s')) (n : Node) (hc : n ≠ .record .Creatable) (p : Place .file n) (hs : p.Stored s'.version) (x : n.Obj)
    (hx : p.get d = some x) (L : ListAttr n.Obj) (hL : L ∈ n.listAttrs) (max : Nat) (ok : L.Elem → Prop) (hok : StoredList s'.version n L max ok)
    (k : Nat) (hlt : k < (L.get x).length) (depth : Nat) (hn : 5 ≤ depth) (ver : Version) :
    ∃ H'' bs h', runEdits o [⟨p.path ++ [.attr (lit L.name)], .delItem k, .none⟩] H' s1 = .ok ((), H'', s1) ∧ W.toBytes H'' depth o ver = .ok bs ∧
      DatFile.fromBytes (ByteHandler.new bs) = .ok (p.set d (L.set x ((L.get x).eraseIdx k)), h') := by
  have old := hok.old (p.good _ d x (C13_parsed_wellformed _ _ _ hd) hs hx).wf
  rw [List.eraseIdx_eq_take_drop_succ]
  refine list_statement h hd hs hx hok (fun hn => absurd hn hc) (by have := old.1; simp; omega) (fun b hb => ?_) s1 hn ver
    (e := .delItem p L hL k) (by simp only [FileEdit.apply, hx, Option.bind_some, if_pos hlt])
  rcases List.mem_append.1 hb with hb | hb
  · exact old.2 b (List.mem_of_mem_take hb)
  · exact old.2 b (List.mem_of_mem_drop hb)

/-- `del data….f[i:j]` (and so `data….f.clear()`): the file written then has the elements before `i` and those from `j` on. -/
theorem C51_del_slice (H H' : Heap) (s s' s1 : ByteHandler) (o : HVal) (d : DatFile) (h : DatFile.build H s = .ok (o, H', s'))
    (hd : DatFile.fromBytes s = .ok (d, s')) (n : Node) (hc : n ≠ .record .Creatable) (p : Place .file n) (hs : p.Stored s'.version) (x : n.Obj)
    (hx : p.get d = some x) (L : ListAttr n.Obj) (hL : L ∈ n.listAttrs) (max : Nat) (ok : L.Elem → Prop) (hok : StoredList s'.version n L max ok)
    (i j : Nat) (hij : i ≤ j) (depth : Nat) (hn : 5 ≤ depth) (ver : Version) :
    ∃ H'' bs h', runEdits o [⟨p.path ++ [.attr (lit L.name)], .delSlice i j, .none⟩] H' s1 = .ok ((), H'', s1) ∧ W.toBytes H'' depth o ver = .ok bs ∧
      DatFile.fromBytes (ByteHandler.new bs) = .ok (p.set d (L.set x ((L.get x).take i ++ (L.get x).drop j)), h') := by
  have old := hok.old (p.good _ d x (C13_parsed_wellformed _ _ _ hd) hs hx).wf
  refine list_statement h hd hs hx hok (fun hn => absurd hn hc) (by have := old.1; simp; omega) (fun b hb => ?_) s1 hn ver
    (e := .delSlice p L hL i j) (by simp only [FileEdit.apply, hx, Option.map_some, Nat.max_eq_right hij])
  rcases List.mem_append.1 hb with hb | hb
  · exact old.2 b (List.mem_of_mem_take hb)
  · exact old.2 b (List.mem_of_mem_drop hb)

/-! ## Names that the class does not declare -/

/-- `data….g = …` with a name that the class of the record does not declare, such as `unit.hitpoints = 5` (the attribute is `hit_points`):
there is no exception, and what is written afterwards is what would have been written without the statement, whatever the value is. -/
theorem C51_undeclared (H H' : Heap) (s s' s1 : ByteHandler) (o : HVal) (d : DatFile) (h : DatFile.build H s = .ok (o, H', s'))
    (hd : DatFile.fromBytes s = .ok (d, s')) (n : Node) (p : Place .file n) (x : n.Obj) (hx : p.get d = some x) (g : PyStr)
    (hg : ∀ A ∈ n.attrs, lit A.name ≠ g) (hc : HReader.ofClass g = false) (u : ObjTree) (depth : Nat) (hn : 5 ≤ depth) (ver : Version) :
    ∃ H'' bs, runEdits o [⟨p.path, .setAttr g, u⟩] H' s1 = .ok ((), H'', s1) ∧ W.toBytes H' depth o ver = .ok bs ∧ W.toBytes H'' depth o ver = .ok bs := by
  obtain ⟨d1, bs, hd1, hb, hw1, -⟩ := C47_save_loaded H H' s s' o h depth hn ver
  rw [hd] at hd1
  have e1 : d = d1 := (Prod.mk.inj (Except.ok.inj hd1)).1
  subst e1
  obtain ⟨H'', h1, h2⟩ := C51_load_edit_save H H' s s' s1 o d h hd [.create p g hg hc u] d
    (by simp only [FileEdit.applyAll, FileEdit.apply, hx, Option.map_some, Option.bind_some]) (C13_parsed_wellformed _ _ _ hd).sized depth hn ver
  exact ⟨H'', bs, h1, hw1, by rw [h2, hb]⟩

/-! ## Examples -/

/-- `hitpoints` is not an attribute of `Unit`, nor of its class; `hit_points` is. -/
example : (∀ A ∈ Node.attrs (.record .Unit), lit A.name ≠ lit "hitpoints") ∧ HReader.ofClass (lit "hitpoints") = false ∧
    ∃ A ∈ Node.attrs (.record .Unit), lit A.name = lit "hit_points" := by
  have no : ∀ nm : PyStr, (Node.attrs (.record .Unit)).all (fun A => decide (lit A.name ≠ nm)) = true → ∀ A ∈ Node.attrs (.record .Unit), lit A.name ≠ nm :=
    fun nm h A hA => of_decide_eq_true (List.all_eq_true.1 h A hA)
  have yes : ∀ nm : PyStr, (Node.attrs (.record .Unit)).any (fun A => decide (lit A.name = nm)) = true → ∃ A ∈ Node.attrs (.record .Unit), lit A.name = nm :=
    fun nm h => by
      obtain ⟨A, hA, h⟩ := List.any_eq_true.1 h
      exact ⟨A, hA, of_decide_eq_true h⟩
  exact ⟨no _ (by decide +kernel), by decide +kernel, yes _ (by decide +kernel)⟩

/-- The expression `data.civs[1].units[3].type_50.attacks[0]`. -/
example : Sample.attackPlace.path = [.attr (lit "civs"), .item 1, .attr (lit "units"), .item 3, .attr (lit "type_50"), .attr (lit "attacks"), .item 0] := rfl

/-- The place `data.effects[0]`, and the list of its commands. -/
def Sample.effectPlace : Place .file (.record .Effect) := .step (.DatFile_effects 0) .here

def Sample.commands : ListAttr Genie.Effect :=
  ⟨"effect_commands", Genie.EffectCommand, fun x => x.effect_commands, fun x y => { x with effect_commands := y }, EffectCommand.object⟩

example (v : Version) : StoredList v (.record .Effect) Sample.commands 32767 (EffectCommand.WF v) := ⟨_, .inl (.head _)⟩

/-- A program of three statements: `data.effects[0].effect_commands.append(EffectCommand(…))`, `….effect_commands.pop()` and
`data.effects[0].name = 'x'`. -/
def Sample.statements (c : EffectCommand) : List FileEdit := [
  .append Sample.effectPlace Sample.commands (.head _) (EffectCommand.object c) c (Carries.refl _),
  .pop Sample.effectPlace Sample.commands (.head _),
  .set (n := .record .Effect) Sample.effectPlace ⟨"name", PyStr, fun (x : Genie.Effect) => x.name, fun x y => { x with name := y }, .str⟩ (.head _)
    (.str (lit "x")) (lit "x") (.str _)]

example (c : EffectCommand) : (Sample.statements c).map FileEdit.python = [
    ⟨[.attr (lit "effects"), .item 0, .attr (lit "effect_commands")], .append, EffectCommand.object c⟩,
    ⟨[.attr (lit "effects"), .item 0, .attr (lit "effect_commands")], .pop, .none⟩,
    ⟨[.attr (lit "effects"), .item 0], .setAttr (lit "name"), .str (lit "x")⟩] := rfl

/-- Files of every version are loaded, the program is executed on the object, and the object is written: the same file with another name for
the effect. -/
example (v : Version) (hv : v ≠ .UNDEFINED) (c : EffectCommand) : ∃ bs s' o H' H'',
    DatFile.build [] (ByteHandler.new bs) = .ok (o, H', s') ∧
    DatFile.fromBytes (ByteHandler.new bs) = .ok (Sample.datFile v, s') ∧
    runEdits o ((Sample.statements c).map FileEdit.python) H' (ByteHandler.new []) = .ok ((), H'', ByteHandler.new []) ∧
    W.toBytes H'' 5 o v = DatFile.toBytes { Sample.datFile v with effects := [{ Sample.effect with name := lit "x" }] } := by
  have hw : DatFile.WF (Sample.datFile v) := ⟨v, Sample.datFile_wf v hv⟩
  obtain ⟨bs, hb, _⟩ := C12_datfile_round_trip_file _ hw
  obtain ⟨s', hr⟩ := (C13_round_trips_iff _ bs hb).2 hw
  obtain ⟨o, N, _, h, _⟩ := (C45_load_builds [] (ByteHandler.new bs)).2 _ s' hr
  obtain ⟨H'', h1, h2⟩ := C51_load_edit_save [] _ _ s' (ByteHandler.new []) o _ h hr (Sample.statements c)
    { Sample.datFile v with effects := [{ Sample.effect with name := lit "x" }] } rfl (Sample.datFile_wf v hv).sized 5 (Nat.le_refl _) v
  exact ⟨bs, s', o, _, H'', h, hr, h1, h2⟩

/-- `data.civs[9]` is not there. -/
example (v : Version) :
    FileEdit.applyAll [.pop (n := .record .Civ) (.step (.DatFile_civs 9) .here)
      ⟨"resources", PyFloat, fun (x : Genie.Civ) => x.resources, fun x y => { x with resources := y }, .float⟩ (.head _)] (Sample.datFile v) = Option.none ∧
    FileEdit.RightAll [.pop (n := .record .Civ) (.step (.DatFile_civs 9) .here)
      ⟨"resources", PyFloat, fun (x : Genie.Civ) => x.resources, fun x y => { x with resources := y }, .float⟩ (.head _)] (Sample.datFile v) :=
  ⟨rfl, ⟨trivial, fun _ _ => trivial⟩, fun _ h => (nomatch h)⟩

end Genie
