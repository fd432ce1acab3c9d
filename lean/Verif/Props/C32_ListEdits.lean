import Verif.Props.C27_HotKeys
/-!
# C32: editing lists
-/

namespace Genie
open Layout

theorem versionNames_inj {s : PyStr} {v w : Version} (h : (s, v) ∈ versionNames) (h' : (s, w) ∈ versionNames) : v = w := by
  have h1 := (versionNames_spec h).1
  have h2 := (versionNames_spec h').1
  rw [h1] at h2
  cases h2; rfl

/-- An edited file comes back if and only if the edited record is well-formed. -/
theorem edited_comes_back_iff {v : Version} {d : DatFile} (hd : DatFile.WFAt v d) {n : Node} (p : Place .file n) (hs : p.Stored v)
    {x y : n.Obj} (hx : p.get d = some x) (hk : n.Kept x y) (hver : DatFile.version (p.set d y) = d.version) :
    (∃ bs h', DatFile.toBytes (p.set d y) = .ok bs ∧ DatFile.fromBytes (ByteHandler.new bs) = .ok (p.set d y, h')) ↔ n.WF v y := by
  have good := p.good v d x hd hs hx
  have keeps := (p.kept d x y hx hk).1
  constructor
  · rintro ⟨bs, h', hb, hr⟩
    obtain ⟨w, hw⟩ := (C13_round_trips_iff _ bs hb).1 ⟨h', hr⟩
    have hw1 := hw.version
    rw [hver] at hw1
    have : w = v := versionNames_inj hw1 hd.version
    subst this
    exact (p.good w _ y hw hs (good.get_set y keeps)).wf
  · intro hy
    have hwf : DatFile.WFAt v (p.set d y) := good.wf_set y hy keeps
    have hb := DatFile.bytes_of_wf hwf
    obtain ⟨h', hr⟩ := DatFile.reload_of_wf hwf hb
    exact ⟨_, h', hb, hr⟩

theorem Slot.to_record {a b : Node} (s : Slot a b) : b ≠ .file := by cases s <;> simp

theorem Place.to_record {a b : Node} (p : Place a b) (h : a ≠ .file) : b ≠ .file := by
  induction p with
  | here => exact h
  | step s p ih => exact ih s.to_record

theorem Place.file_here (p : Place .file .file) : p = .here := by
  match p with
  | .here => rfl
  | .step s p => exact absurd rfl (p.to_record s.to_record)

/-- What is asked of a list field that it does not change the version. -/
theorem set_version_of {n : Node} (p : Place .file n) (d : DatFile) (x : n.Obj) (hx : p.get d = some x) (y : n.Obj)
    (h : ∀ (e : n = .file) (x' y' : DatFile), HEq x x' → HEq y y' → DatFile.version y' = DatFile.version x') :
    DatFile.version (p.set d y) = d.version := by
  cases n with
  | record c => exact p.set_version d y
  | file =>
    rw [p.file_here] at hx ⊢
    cases hx
    exact h rfl _ _ HEq.rfl HEq.rfl

/-- Any list that is written with its length (tasks, attacks, effect commands, sound items, civs, techs, ...), anywhere in a file,
can be replaced by any other list: the edited file is written and read back as edited if and only if the elements can be stored and
there are not more than the count field allows.  (The train locations of a unit: as long as the hot key of the first one stays.) -/
theorem C32_counted_list (v : Version) (d : DatFile) (hd : DatFile.WFAt v d) (n : Node) (p : Place .file n) (hs : p.Stored v)
    (x : n.Obj) (hx : p.get d = some x) (max : Nat) (f : ListField n.Obj) (hf : (max, f) ∈ n.countedLists v) (l : List f.Elem)
    (hk : n = .record .Creatable → n.Kept x (f.set x l)) :
    (∃ bs h', DatFile.toBytes (p.set d (f.set x l)) = .ok bs ∧
      DatFile.fromBytes (ByteHandler.new bs) = .ok (p.set d (f.set x l), h')) ↔ l.length ≤ max ∧ ∀ e ∈ l, f.ok e := by
  have good := p.good v d x hd hs hx
  have ok := Node.countedLists_ok v n _ hf
  have kept : n.Kept x (f.set x l) := by
    by_cases hc : n = .record .Creatable
    · exact hk hc
    · exact countedLists_kept v n _ hf hc x l
  refine (edited_comes_back_iff hd p hs hx kept ?_).trans (ok.wf x good.wf l)
  refine set_version_of p d x hx _ fun e x' y' hx' hy' => ?_
  subst e
  cases hx'; cases hy'
  have : ∀ g ∈ Node.countedLists v .file, ∀ x l, DatFile.version (g.2.set x l) = DatFile.version x := by
    repeat (first | exact forall_nil | refine forall_cons (fun _ _ => rfl) ?_)
  exact this _ hf _ l

/-- The same for the lists with empty slots (the units of a civ, the graphics of the file). -/
theorem C32_slot_list (v : Version) (d : DatFile) (hd : DatFile.WFAt v d) (n : Node) (p : Place .file n) (hs : p.Stored v)
    (x : n.Obj) (hx : p.get d = some x) (max : Nat) (f : ListField n.Obj) (hf : (max, f) ∈ n.slotLists v) (l : List f.Elem) :
    (∃ bs h', DatFile.toBytes (p.set d (f.set x l)) = .ok bs ∧
      DatFile.fromBytes (ByteHandler.new bs) = .ok (p.set d (f.set x l), h')) ↔ l.length ≤ max ∧ ∀ e ∈ l, f.ok e := by
  have good := p.good v d x hd hs hx
  have ok := Node.slotLists_ok v n _ hf
  refine (edited_comes_back_iff hd p hs hx (slotLists_kept v n _ hf x l) ?_).trans (ok.wf x good.wf l)
  refine set_version_of p d x hx _ fun e x' y' hx' hy' => ?_
  subst e
  cases hx'; cases hy'
  have : ∀ g ∈ Node.slotLists v .file, ∀ x l, DatFile.version (g.2.set x l) = DatFile.version x := by
    repeat (first | exact forall_nil | refine forall_cons (fun _ _ => rfl) ?_)
  exact this _ hf _ l

/-- `l.pop(k)`, `del l[k]`: removing an element is always possible. -/
theorem C32_remove (v : Version) (d : DatFile) (hd : DatFile.WFAt v d) (n : Node) (hn : n ≠ .record .Creatable) (p : Place .file n)
    (hs : p.Stored v) (x : n.Obj) (hx : p.get d = some x) (max : Nat) (f : ListField n.Obj)
    (hf : (max, f) ∈ n.countedLists v ∨ (max, f) ∈ n.slotLists v) (k : Nat) :
    ∃ bs h', DatFile.toBytes (p.set d (f.set x ((f.get x).eraseIdx k))) = .ok bs ∧
      DatFile.fromBytes (ByteHandler.new bs) = .ok (p.set d (f.set x ((f.get x).eraseIdx k)), h') := by
  have good := p.good v d x hd hs hx
  have key : UpTo max f.ok (f.get x) := by
    rcases hf with hf | hf
    · exact (Node.countedLists_ok v n _ hf).old x good.wf
    · exact (Node.slotLists_ok v n _ hf).old x good.wf
  have : ((f.get x).eraseIdx k).length ≤ max ∧ ∀ e ∈ (f.get x).eraseIdx k, f.ok e :=
    ⟨Nat.le_trans (List.length_eraseIdx_le _ _) key.1, fun e he => key.2 e (List.mem_of_mem_eraseIdx he)⟩
  rcases hf with hf | hf
  · exact (C32_counted_list v d hd n p hs x hx max f hf _ fun h => absurd h hn).2 this
  · exact (C32_slot_list v d hd n p hs x hx max f hf _).2 this

/-- `l.insert(k, e)`, `l.append(e)`: adding an element that can be stored is possible as long as the count field allows it. -/
theorem C32_insert (v : Version) (d : DatFile) (hd : DatFile.WFAt v d) (n : Node) (hn : n ≠ .record .Creatable) (p : Place .file n)
    (hs : p.Stored v) (x : n.Obj) (hx : p.get d = some x) (max : Nat) (f : ListField n.Obj)
    (hf : (max, f) ∈ n.countedLists v ∨ (max, f) ∈ n.slotLists v) (k : Nat) (e : f.Elem) (he : f.ok e) :
    (∃ bs h', DatFile.toBytes (p.set d (f.set x ((f.get x).take k ++ e :: (f.get x).drop k))) = .ok bs ∧
      DatFile.fromBytes (ByteHandler.new bs) = .ok (p.set d (f.set x ((f.get x).take k ++ e :: (f.get x).drop k)), h')) ↔
    (f.get x).length < max := by
  have good := p.good v d x hd hs hx
  have key : UpTo max f.ok (f.get x) := by
    rcases hf with hf | hf
    · exact (Node.countedLists_ok v n _ hf).old x good.wf
    · exact (Node.slotLists_ok v n _ hf).old x good.wf
  have len : ((f.get x).take k ++ e :: (f.get x).drop k).length = (f.get x).length + 1 := by
    rw [List.length_append, List.length_cons, ← Nat.add_assoc, ← List.length_append, List.take_append_drop]
  have : (((f.get x).take k ++ e :: (f.get x).drop k).length ≤ max ∧ ∀ e' ∈ (f.get x).take k ++ e :: (f.get x).drop k, f.ok e') ↔
      (f.get x).length < max := by
    rw [len]
    refine ⟨fun h => h.1, fun h => ⟨h, fun e' he' => ?_⟩⟩
    rcases List.mem_append.1 he' with h | h
    · exact key.2 e' (List.mem_of_mem_take h)
    · rcases List.mem_cons.1 h with rfl | h
      · exact he
      · exact key.2 e' (List.mem_of_mem_drop h)
  rcases hf with hf | hf
  · exact (C32_counted_list v d hd n p hs x hx max f hf _ fun h => absurd h hn).trans this
  · exact (C32_slot_list v d hd n p hs x hx max f hf _).trans this

/-- `for civ in data.civs: civ.units[k].bird.tasks.pop()` (where Python raises an exception if there is no such unit or no task to
remove, this leaves the civ unchanged). -/
def DatFile.popTasks (d : DatFile) (k : Nat) : DatFile := { d with
  civs := d.civs.map fun c => { c with
    units := c.units.modify k fun o => o.map fun u => { u with
      bird := u.bird.map fun b => { b with tasks := b.tasks.dropLast } } } }

theorem dropLast_upTo {p : α → Prop} {n : Nat} {l : List α} (h : UpTo n p l) : UpTo n p l.dropLast :=
  ⟨by rw [List.length_dropLast]; exact Nat.le_trans (Nat.sub_le _ _) h.1, fun e he => h.2 e (List.dropLast_subset l he)⟩

/-- README, "Prevent Kings from garrisoning" (there `k = 434`). -/
theorem C32_kings (v : Version) (d : DatFile) (hd : DatFile.WFAt v d) (k : Nat) :
    ∃ bs h', DatFile.toBytes (d.popTasks k) = .ok bs ∧ DatFile.fromBytes (ByteHandler.new bs) = .ok (d.popTasks k, h') := by
  have hu : ∀ u, Unit.WF v u → Unit.WF v { u with bird := u.bird.map fun b => { b with tasks := b.tasks.dropLast } } := by
    intro u h
    refine { h with bird := ⟨h.bird.1.trans (by cases u.bird <;> simp), fun b hb => ?_⟩ }
    cases hub : u.bird with
    | none => rw [hub] at hb; cases hb
    | some b' =>
      rw [hub] at hb; cases hb
      have := h.bird.2 b' hub
      exact { this with tasks := dropLast_upTo this.tasks }
  have hw : DatFile.WFAt v (d.popTasks k) := by
    refine { hd with civs := ⟨by simp [DatFile.popTasks]; exact hd.civs.1, fun c hc => ?_⟩ }
    obtain ⟨c', hc', rfl⟩ := List.mem_map.1 hc
    have h := hd.civs.2 c' hc'
    refine { h with units := ⟨by rw [List.length_modify]; exact h.units.1, fun o ho => ?_⟩ }
    obtain ⟨i, hi⟩ := List.getElem?_of_mem ho
    rw [List.getElem?_modify] at hi
    cases hc : c'.units[i]? with
    | none => rw [hc] at hi; cases hi
    | some o' =>
      rw [hc] at hi
      have ho' := h.units.2 o' (List.mem_of_getElem? hc)
      by_cases hki : k = i
      · have hi := Option.some.inj hi
        dsimp only at hi
        rw [if_pos hki] at hi
        rw [← hi]
        intro u hu'
        cases ho : o' with
        | none => rw [ho] at hu'; cases hu'
        | some u' =>
          rw [ho] at hu'; cases hu'
          exact hu u' (ho' u' ho)
      · have hi := Option.some.inj hi
        dsimp only at hi
        rw [if_neg hki] at hi
        rw [← hi]; exact ho'
  have hb := DatFile.bytes_of_wf hw
  obtain ⟨h', hr⟩ := DatFile.reload_of_wf hw hb
  exact ⟨_, h', hb, hr⟩

/-- The edit does what it should: in the sample file, unit 3 of both civs has two tasks before, and one after. -/
example (v : Version) : (((Sample.datFile v).civs.map fun c => c.units.map fun o => (o.bind (·.bird)).map (·.tasks.length)) =
      [[none, none, some 2, some 2, some 2, none], [none, none, some 2, some 2, some 2, none]]) ∧
    ((((Sample.datFile v).popTasks 3).civs.map fun c => c.units.map fun o => (o.bind (·.bird)).map (·.tasks.length)) =
      [[none, none, some 2, some 1, some 2, none], [none, none, some 2, some 1, some 2, none]]) := ⟨rfl, rfl⟩

end Genie
