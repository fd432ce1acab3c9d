import Verif.Props.C32_ListEdits
/-!
# C31: lists of fixed length
-/

namespace Genie
open Layout

theorem causes_of_splits {v : Version} {d : DatFile} (hd : DatFile.WFAt v d) {n : Node} {p : Place .file n} (hs : p.Stored v)
    {x : n.Obj} (hx : p.get d = some x) : ∃ A B, causes A = [] ∧ causes B = [] ∧
      ∀ y, p.Keeps d y → DatFile.layoutAt v (p.set d y) = A ++ n.layout v y ++ B := by
  have good := p.good v d x hd hs hx
  obtain ⟨A, B, h⟩ := good.splits
  have h0 := h x good.keeps
  simp only [Node.layout] at h0
  rw [good.self] at h0
  have c := DatFile.clean hd
  rw [h0, clean_append, clean_append] at c
  exact ⟨A, B, c.1.1, c.2, fun y hy => h y hy⟩

/-- A list that the reader expects with a fixed length (except for those of the struct-packed blocks, see below) is written with any
length, without a complaint; the file is read back as edited exactly if the length is the right one. -/
theorem C31_fixed_list (v : Version) (d : DatFile) (hd : DatFile.WFAt v d) (n : Node) (p : Place .file n) (hs : p.Stored v)
    (x : n.Obj) (hx : p.get d = some x) (len : Nat) (f : ListField n.Obj) (hf : (len, f) ∈ n.fixedLists v) :
    ∃ pre post, ∀ l : List f.Elem, (∀ e ∈ l, f.ok e) →
      DatFile.toBytes (p.set d (f.set x l)) = .ok (pre ++ layoutBytes (each f.items l) ++ post) ∧
      ((∃ h', DatFile.fromBytes (ByteHandler.new (pre ++ layoutBytes (each f.items l) ++ post)) = .ok (p.set d (f.set x l), h')) ↔
        l.length = len) := by
  have good := p.good v d x hd hs hx
  have ok := Node.fixedLists_ok v n _ hf
  obtain ⟨A, B, cA, cB, hAB⟩ := causes_of_splits hd hs hx
  obtain ⟨C, D, hCD⟩ := ok.splits x good.wf
  have hCD : ∀ l, n.layout v (f.set x l) = C ++ each f.items l ++ D := fun l => hCD l trivial
  have cc : causes C = [] ∧ causes D = [] := by
    have h0 := hAB x good.keeps
    rw [good.self] at h0
    have c := DatFile.clean hd
    have e : n.layout v x = C ++ each f.items (f.get x) ++ D := by rw [← hCD, ok.self]
    rw [h0, e] at c
    simp only [clean_append] at c
    exact ⟨c.1.2.1.1, c.1.2.2⟩
  refine ⟨layoutBytes (A ++ C), layoutBytes (D ++ B), fun l hl => ?_⟩
  have kept := fixedLists_kept v n _ hf x l
  have lay : DatFile.layoutAt v (p.set d (f.set x l)) = (A ++ C) ++ each f.items l ++ (D ++ B) := by
    rw [hAB _ (p.kept d x _ hx kept).1, hCD]
    simp only [List.append_assoc]
  have cl : causes (DatFile.layoutAt v (p.set d (f.set x l))) = [] := by
    rw [lay]
    simp only [clean_append, cA, cB, cc, and_true, true_and]
    exact clean_each.2 fun e he => ok.clean e (hl e he)
  have hver : DatFile.version (p.set d (f.set x l)) = d.version := by
    refine set_version_of p d x hx _ fun e x' y' hx' hy' => ?_
    subst e
    cases hf
  have hb : DatFile.toBytes (p.set d (f.set x l)) = .ok (layoutBytes (A ++ C) ++ layoutBytes (each f.items l) ++ layoutBytes (D ++ B)) := by
    have := (DatFile.writesAt (show Version.ofStr (DatFile.version (p.set d (f.set x l))) = .ok v by
      rw [hver]; exact (versionNames_spec hd.version).1)).ok_of cl
    rw [lay, layoutBytes_append, layoutBytes_append] at this
    exact this
  refine ⟨hb, ?_⟩
  rw [← (ok.wf x good.wf l hl), ← edited_comes_back_iff hd p hs hx kept hver]
  constructor
  · rintro ⟨h', hr⟩; exact ⟨_, h', hb, hr⟩
  · rintro ⟨bs, h', hb', hr⟩
    rw [hb] at hb'
    cases hb'
    exact ⟨h', hr⟩

theorem Node.WF_record {c : RecordClass} (h : c ≠ .Creatable) (v : Version) (x : c.Obj) : Node.WF v (.record c) x ↔ c.WF v x := by
  cases c <;> first | exact Iff.rfl | exact absurd rfl h

/-- The same for a record alone. -/
theorem C31_fixed_list_alone (v : Version) (c : RecordClass) (x : c.Obj) (hx : c.WF v x)
    (len : Nat) (f : ListField c.Obj) (hf : (len, f) ∈ Node.fixedLists v (.record c)) :
    ∃ pre post, ∀ l : List f.Elem, (∀ e ∈ l, f.ok e) →
      c.toBytes v (f.set x l) = .ok (pre ++ layoutBytes (each f.items l) ++ post) ∧
      ((∃ h', c.fromBytes { ByteHandler.new (pre ++ layoutBytes (each f.items l) ++ post) with version := v } = .ok (f.set x l, h')) ↔
        l.length = len) := by
  have ok := Node.fixedLists_ok v _ _ hf
  have hn : Node.WF v (.record c) x := by
    by_cases hc : c = .Creatable
    · subst hc; exact ⟨_, hx⟩
    · exact (Node.WF_record hc v x).2 hx
  obtain ⟨C, D, hCD⟩ := ok.splits x hn
  have hCD : ∀ l, c.layout v (f.set x l) = C ++ each f.items l ++ D := fun l => hCD l trivial
  have cc : causes C = [] ∧ causes D = [] := by
    have e : c.layout v x = C ++ each f.items (f.get x) ++ D := by rw [← hCD]; exact congrArg (c.layout v) (ok.self x).symm
    have := RecordClass.clean c hx
    rw [e] at this
    simp only [clean_append] at this
    exact ⟨this.1.1, this.2⟩
  refine ⟨layoutBytes C, layoutBytes D, fun l hl => ?_⟩
  have cl : causes (c.layout v (f.set x l)) = [] := by
    rw [hCD]
    simp only [clean_append, cc, and_true, true_and]
    exact clean_each.2 fun e he => ok.clean e (hl e he)
  have hb := (c.writes v (f.set x l)).ok_of cl
  rw [hCD, layoutBytes_append, layoutBytes_append] at hb
  refine ⟨hb, ?_⟩
  rw [C13_record_round_trips_iff c v _ _ hb]
  by_cases hc : c = .Creatable
  · subst hc
    have : ∀ g ∈ Node.fixedLists v (.record .Creatable), ∀ l, AllOf g.2.ok l → (Creatable.WF v (g.2.set x l) ↔ l.length = g.1) := by
      refine forall_cons (fun l hl => ?_) forall_nil
      have hx : Creatable.WFWith v 16000 x := hx
      constructor
      · intro (k : Creatable.WFWith v 16000 { x with resource_costs := l })
        exact k.resource_costs.1
      · intro k
        show Creatable.WFWith v 16000 { x with resource_costs := l }
        exact { hx with resource_costs := ⟨k, hl⟩ }
    exact this _ hf l hl
  · exact (Node.WF_record hc v _).symm.trans (ok.wf x hn l hl)

/-! ## Struct-packed blocks -/

theorem causes_block_wrong {fmt : String} {vs : List Val} (h : (codes fmt).length ≠ vs.length) : causes (block fmt vs) = [.structError] := by
  simp [block, causes, requires, Item.cause, h]

theorem Writes.error_of {w : Py Bytes} {its : List Item} {e : PyErr} (h : Writes w its) (hc : causes its = [e]) : w = .error e := by
  cases hw : w with
  | ok bs => have := (h.ok bs hw).1; rw [hc] at this; cases this
  | error e' => have := h.error e' hw; rw [hc] at this; simp only [List.mem_singleton] at this; rw [this]

theorem edited_raises {v : Version} {d : DatFile} (hd : DatFile.WFAt v d) {c : RecordClass} {p : Place .file (.record c)} (hs : p.Stored v)
    {x y : c.Obj} (hx : p.get d = some x) (hk : Node.Kept (.record c) x y) {e : PyErr} (hc : causes (c.layout v y) = [e]) :
    DatFile.toBytes (p.set d y) = .error e := by
  obtain ⟨A, B, cA, cB, hAB⟩ := causes_of_splits hd hs hx
  refine (DatFile.writesAt (show Version.ofStr (DatFile.version (p.set d y)) = .ok v by
      rw [p.set_version]; exact (versionNames_spec hd.version).1)).error_of ?_
  rw [hAB y (p.kept d x y hx hk).1, causes_append, causes_append, cA, cB]
  show [] ++ causes (c.layout v y) ++ [] = _
  rw [hc]; rfl

/-- The unit with these four lists. -/
def Unit.withLists (u : Unit) (standing_graphic placement_side_terrain placement_terrain : List Int) (clearance_size : List PyFloat) : Unit := { u with
  standing_graphic := standing_graphic, placement_side_terrain := placement_side_terrain
  placement_terrain := placement_terrain, clearance_size := clearance_size }

theorem codes_length_15 : (codes "bhllhhhhhbhfbfffhhhhbbhbhbbhhhhffbbhbhfbbbbbfbllbbbbbbbbbhbbfffll").length = 65 := by rw [codes_15]; rfl
theorem codes_length_16 : (codes "bhllhhhhhbhfbfffhhhhbbhbhbbhhhhffbbhbhfbbbbbfblllbbbbbbbbbhbbfffll").length = 66 := by rw [codes_16]; rfl

theorem Unit.withLists_causes {v : Version} {u : Unit} (hu : Unit.WF v u) {s ps pt : List Int} {c : List PyFloat}
    (h : s.length + ps.length + pt.length + c.length ≠ 8) : causes (Unit.layout v (u.withLists s ps pt c)) = [.structError] := by
  have h0 : causes (Unit.layout v u) = [] := RecordClass.clean .Unit hu
  rw [Unit.layout_eq] at h0 ⊢
  unfold Unit.withLists
  dsimp only
  rw [List.flatten_cons, causes_append] at h0 ⊢
  rw [(List.append_eq_nil_iff.1 h0).2, List.append_nil]
  apply causes_block_wrong
  by_cases hv : 88 ≤ v.num
  · simp only [if_pos hv, codes_length_15, List.length_append, List.length_cons, List.length_nil, List.length_map]; omega
  · simp only [if_neg hv, codes_length_16, List.length_append, List.length_cons, List.length_nil, List.length_map]; omega

/-- The four lists of a unit that are struct-packed with its other values: if they do not have eight elements in total, saving
raises `struct.error`, whatever the elements are. -/
theorem C31_unit_lists (v : Version) (d : DatFile) (hd : DatFile.WFAt v d) (p : Place .file (.record .Unit)) (hs : p.Stored v)
    (u : Unit) (hx : p.get d = some u) (s ps pt : List Int) (c : List PyFloat) (h : s.length + ps.length + pt.length + c.length ≠ 8) :
    DatFile.toBytes (p.set d (u.withLists s ps pt c)) = .error .structError :=
  edited_raises hd hs hx (kept_of_plain ⟨(by simp), (by simp), (by simp)⟩ _ _) (Unit.withLists_causes (p.good v d u hd hs hx).wf h)

/-- The same for a unit alone. -/
theorem C31_unit_lists_alone (v : Version) (u : Unit) (hu : Unit.WF v u) (s ps pt : List Int) (c : List PyFloat)
    (h : s.length + ps.length + pt.length + c.length ≠ 8) : Unit.toBytes v (u.withLists s ps pt c) = .error .structError :=
  (RecordClass.writes .Unit v (u.withLists s ps pt c)).error_of (Unit.withLists_causes hu h)

/-- If the lengths add up, the values are written one after the other, and the reader groups them in twos: a wrong length is then
not detected.  (If it is one of the other two lists that has a wrong length, the values end up in fields of other types, and
`struct.error` is likely.) -/
theorem C31_unit_regrouped (v : Version) (d : DatFile) (hd : DatFile.WFAt v d) (p : Place .file (.record .Unit)) (hs : p.Stored v)
    (u : Unit) (hx : p.get d = some u) (ps pt : List Int) (h : ps.length + pt.length = 4) (hps : ∀ i ∈ ps, IsI16 i) (hpt : ∀ i ∈ pt, IsI16 i) :
    ∃ bs h', DatFile.toBytes (p.set d { u with placement_side_terrain := ps, placement_terrain := pt }) = .ok bs ∧
      DatFile.fromBytes (ByteHandler.new bs) =
        .ok (p.set d { u with placement_side_terrain := (ps ++ pt).take 2, placement_terrain := (ps ++ pt).drop 2 }, h') := by
  have good := p.good v d u hd hs hx
  have hu : Unit.WF v u := good.wf
  have all : AllOf IsI16 (ps ++ pt) := fun i hi => (List.mem_append.1 hi).elim (hps i) (hpt i)
  have len : (ps ++ pt).length = 4 := by rw [List.length_append, h]
  have hw : Unit.WF v { u with placement_side_terrain := (ps ++ pt).take 2, placement_terrain := (ps ++ pt).drop 2 } :=
    { hu with
      placement_side_terrain := ⟨by rw [List.length_take, len]; rfl, fun i hi => all i (List.mem_of_mem_take hi)⟩
      placement_terrain := ⟨by rw [List.length_drop, len], fun i hi => all i (List.mem_of_mem_drop hi)⟩ }
  have keeps : ∀ w : Unit, p.Keeps d w := fun w => Unit.keeps_any p d u w hx
  have hwf : DatFile.WFAt v (p.set d { u with placement_side_terrain := (ps ++ pt).take 2, placement_terrain := (ps ++ pt).drop 2 }) :=
    good.wf_set _ hw (keeps _)
  have hb := DatFile.bytes_of_wf hwf
  obtain ⟨h', hr⟩ := DatFile.reload_of_wf hwf hb
  refine ⟨_, h', ?_, hr⟩
  refine p.same_bytes hd hs hx (keeps _) (keeps _) ?_ hb
  show Unit.layout v _ = Unit.layout v _
  have e : ∀ r : List Val, List.map Val.int ps ++ (List.map Val.int pt ++ r) =
      List.map Val.int ((ps ++ pt).take 2) ++ (List.map Val.int ((ps ++ pt).drop 2) ++ r) := by
    intro r
    rw [← List.append_assoc, ← List.map_append, ← List.append_assoc, ← List.map_append, List.take_append_drop]
  rw [Unit.layout_eq, Unit.layout_eq]
  simp only [List.append_assoc, e]

/-- The looting table of a building has six elements, or saving raises `struct.error`. -/
theorem C31_looting_table (v : Version) (d : DatFile) (hd : DatFile.WFAt v d) (p : Place .file (.record .Building)) (hs : p.Stored v)
    (x : Building) (hx : p.get d = some x) (l : List Int) (h : l.length ≠ 6) :
    DatFile.toBytes (p.set d { x with looting_table := l }) = .error .structError := by
  refine edited_raises hd hs hx (kept_of_plain ⟨(by simp), (by simp), (by simp)⟩ _ _) ?_
  have hw : Building.WF v x := (p.good v d x hd hs hx).wf
  have h0 : causes (Building.layout v x) = [] := RecordClass.clean .Building hw
  show causes (Building.layout v { x with looting_table := l }) = _
  simp only [Building.layout, List.flatten_cons, causes_append, List.append_eq_nil_iff] at h0 ⊢
  rw [h0.1, h0.2.1, causes_block_wrong]
  · rfl
  · rw [codes_11]
    simp only [List.length_append, List.length_cons, List.length_nil, List.length_map]; omega

/-- The projectile spawning area of a unit has three elements, or saving raises `struct.error`. -/
theorem C31_spawning_area (v : Version) (d : DatFile) (hd : DatFile.WFAt v d) (p : Place .file (.record .Creatable)) (hs : p.Stored v)
    (x : Creatable) (hx : p.get d = some x) (l : List PyFloat) (h : l.length ≠ 3) :
    DatFile.toBytes (p.set d { x with projectile_spawning_area := l }) = .error .structError := by
  refine edited_raises (c := .Creatable) (y := { x with projectile_spawning_area := l }) hd hs hx (creatable_kept rfl) ?_
  obtain ⟨hk, hw⟩ : ∃ hk, Creatable.WFWith v hk x := (p.good v d x hd hs hx).wf
  have h0 : causes (Creatable.layout v x) = [] := by
    have := (p.good v d x hd hs hx)
    obtain ⟨A, B, cA, cB, hAB⟩ := causes_of_splits hd hs hx
    have e := hAB x this.keeps
    rw [this.self] at e
    have c := DatFile.clean hd
    rw [e] at c
    simp only [clean_append] at c
    exact c.1.2
  show causes (Creatable.layout v { x with projectile_spawning_area := l }) = _
  by_cases hv : 88 ≤ v.num
  · simp only [Creatable.layout, if_pos hv, List.flatten_cons, causes_append, List.append_eq_nil_iff] at h0 ⊢
    rw [h0.1, h0.2.1, h0.2.2.1, causes_block_wrong]
    · rfl
    · rw [codes_12]
      simp only [List.length_append, List.length_cons, List.length_nil, List.length_map]; omega
  · obtain ⟨t, e, -⟩ := hw.train_locations.of_lt' hv
    by_cases hv2 : 84 ≤ v.num
    · simp only [Creatable.layout, if_neg hv, e, if_pos hv2, causes_append, List.append_eq_nil_iff] at h0 ⊢
      rw [h0.1, causes_block_wrong]
      · rfl
      · rw [codes_13]
        simp only [List.length_append, List.length_cons, List.length_nil, List.length_map]; omega
    · simp only [Creatable.layout, if_neg hv, e, if_neg hv2, causes_append, List.append_eq_nil_iff] at h0 ⊢
      rw [h0.1, causes_block_wrong]
      · rfl
      · rw [codes_14]
        simp only [List.length_append, List.length_cons, List.length_nil, List.length_map]; omega

/-- The hypotheses can be met: four units of the sample file, and a building and what it creates. -/
example (v : Version) :
    (Place.step (.DatFile_civs 0) (.step (.Civ_units 4) .here)).get (Sample.datFile v) = some (Sample.house v) ∧
    (Place.step (.DatFile_civs 0) (.step (.Civ_units 4) (.step .Unit_building .here))).get (Sample.datFile v) = some Sample.building ∧
    (Place.step (.DatFile_civs 0) (.step (.Civ_units 4) (.step .Unit_creatable .here))).get (Sample.datFile v) = some (Sample.creatable v 16002) ∧
    (Place.step (.DatFile_techs 1) .here).get (Sample.datFile v) = some Sample.tech := ⟨rfl, rfl, rfl, rfl⟩

end Genie
