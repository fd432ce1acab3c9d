import Verif.Props.C27_Edits
/-!
# C27: hot keys

The hot key of a unit is in the object twice (in the unit, and in its first train location), and in the file once.
-/

namespace Genie
open Layout

/-- A place of a record is not the file itself, so the version stays. -/
theorem Place.set_version {c : RecordClass} (p : Place .file (.record c)) (d : DatFile) (y : c.Obj) :
    DatFile.version (p.set d y) = d.version := by
  match p with
  | .step s p =>
    show (DatFile.version (match s.get d with | none => d | some m => s.set d (p.set m y))) = d.version
    split
    · rfl
    · cases s <;> rfl

/-- The bytes of a file depend on the items of its records only. -/
theorem Place.same_bytes {v : Version} {d : DatFile} (hd : DatFile.WFAt v d) {c : RecordClass} (p : Place .file (.record c)) (hs : p.Stored v)
    {x y z : c.Obj} (hx : p.get d = some x) (hy : p.Keeps d y) (hz : p.Keeps d z) (hyz : c.layout v z = c.layout v y)
    {bs : Bytes} (hw : DatFile.toBytes (p.set d y) = .ok bs) : DatFile.toBytes (p.set d z) = .ok bs := by
  have good := p.good v d x hd hs hx
  obtain ⟨A, B, h⟩ := good.splits
  have e : DatFile.layoutAt v (p.set d z) = DatFile.layoutAt v (p.set d y) := by
    have h1 := h y hy
    have h2 := h z hz
    simp only [Node.layout] at h1 h2
    rw [h1, h2, hyz]
  have hv := (versionNames_spec hd.version).1
  have hvy : Version.ofStr (DatFile.version (p.set d y)) = .ok v := by rw [p.set_version]; exact hv
  have hvz : Version.ofStr (DatFile.version (p.set d z)) = .ok v := by rw [p.set_version]; exact hv
  have wy := DatFile.writesAt hvy
  have wz := DatFile.writesAt hvz
  have k := wy.ok _ hw
  rw [← e] at k
  rw [wz.ok_of k.1, ← k.2]

/-- The unit with another hot key, both in the unit and in its first train location (if it has one). -/
def Unit.setHotKey (u : Unit) (i : Int) : Unit := { u with
  hot_key := i
  creatable := u.creatable.map fun c => { c with
    train_locations := match c.train_locations with
      | [] => []
      | t :: ts => { t with hot_key_id := i } :: ts } }

theorem Unit.keeps_any (p : Place .file (.record .Unit)) (d : DatFile) (u w : Unit) (hx : p.get d = some u) : p.Keeps d w :=
  (p.kept d u w hx (kept_of_plain ⟨(by simp), (by simp), (by simp)⟩ _ _)).1

theorem Unit.setHotKey_self {v : Version} {u : Unit} (h : Unit.WF v u) : u.setHotKey u.hot_key = u := by
  unfold Unit.setHotKey
  have : (u.creatable.map fun c => { c with
    train_locations := match c.train_locations with
      | [] => []
      | t :: ts => { t with hot_key_id := u.hot_key } :: ts }) = u.creatable := by
    cases hc : u.creatable with
    | none => rfl
    | some c =>
      simp only [Option.map_some, Option.some.injEq]
      cases hl : c.train_locations with
      | nil => simp only; rw [← hl]
      | cons t ts =>
        have : u.hot_key = t.hot_key_id := by
          by_cases hv : 88 ≤ v.num
          · exact (h.hot_key.of_ge' hv).1 c t ts hc hl
          · obtain ⟨t', e, -, -, -, hk⟩ := (h.creatable.2 c hc).train_locations.of_lt' hv
            rw [hl] at e; cases e; exact hk.symm
        simp only [this]; rw [← hl]
  rw [this]

theorem Unit.setHotKey_wf {v : Version} {u : Unit} (h : Unit.WF v u) {i : Int} (hi : IsI32 i)
    (h88 : 88 ≤ v.num → ∃ c t ts, u.creatable = some c ∧ c.train_locations = t :: ts) : Unit.WF v (u.setHotKey i) := by
  refine { h with
    hot_key := ?_
    creatable := ⟨h.creatable.1.trans (by simp [Unit.setHotKey]), ?_⟩ }
  · by_cases hv : 88 ≤ v.num
    · obtain ⟨c, t, ts, hc, hl⟩ := h88 hv
      refine Since.of_ge hv ⟨?_, ?_⟩
      · intro c' t' ts' hc' hl'
        simp only [Unit.setHotKey, hc, Option.map_some, Option.some.injEq] at hc'
        rw [← hc'] at hl'
        simp only [hl] at hl'
        cases hl'; rfl
      · intro hn
        have := hn _ (by simp only [Unit.setHotKey, hc, Option.map_some]; rfl)
        simp only [hl] at this
        cases this
    · exact Since.of_lt hv hi
  · intro c' hc'
    cases hc : u.creatable with
    | none => simp [Unit.setHotKey, hc] at hc'
    | some c =>
      simp only [Unit.setHotKey, hc, Option.map_some, Option.some.injEq] at hc'
      have hw := h.creatable.2 c hc
      subst hc'
      refine { hw with train_locations := ?_ }
      by_cases hv : 88 ≤ v.num
      · have := hw.train_locations.of_ge' hv
        refine Since.of_ge hv ?_
        cases hl : c.train_locations with
        | nil => exact ⟨Nat.zero_le _, fun _ h => (by cases h)⟩
        | cons t ts =>
          rw [hl] at this
          refine ⟨this.1, fun t' ht' => ?_⟩
          rcases List.mem_cons.1 ht' with rfl | ht'
          · exact { this.2 t List.mem_cons_self with hot_key_id := Since.of_ge hv hi }
          · exact this.2 t' (List.mem_cons_of_mem _ ht')
      · obtain ⟨t, e, a, b, c, -⟩ := hw.train_locations.of_lt' hv
        exact Since.of_lt hv ⟨{ t with hot_key_id := i }, (by dsimp only; rw [e]), a, b, c, rfl⟩

/-- Before 8.8, the hot key of the unit counts: it has four bytes in the file, and is what is read back for both; that of the
train location is ignored by the writer. -/
theorem C27_hot_key_before_88 (v : Version) (hv : v.num < 88) (d : DatFile) (hd : DatFile.WFAt v d) (p : Place .file (.record .Unit))
    (hs : p.Stored v) (u : Unit) (hx : p.get d = some u) :
    ∃ pre post, DatFile.toBytes d = .ok (pre ++ intBytes 4 u.hot_key ++ post) ∧
      ∀ i ignored, IsI32 i →
        DatFile.toBytes (p.set d { u.setHotKey ignored with hot_key := i }) = .ok (pre ++ intBytes 4 i ++ post) ∧
        ∃ h', DatFile.fromBytes (ByteHandler.new (pre ++ intBytes 4 i ++ post)) = .ok (p.set d (u.setHotKey i), h') := by
  have hv' : ¬ 88 ≤ v.num := by omega
  have good := p.good v d u hd hs hx
  have hu : Unit.WF v u := good.wf
  have lay : ∀ i k, Unit.layout v { u.setHotKey k with hot_key := i } = Unit.layout v { u with hot_key := i } := by
    intro i k
    simp only [Unit.layout_eq, Unit.setHotKey]
    have : partFrom u.type 70 (Creatable.layout v) (u.creatable.map fun c => { c with
      train_locations := match c.train_locations with
        | [] => []
        | t :: ts => { t with hot_key_id := k } :: ts }) = partFrom u.type 70 (Creatable.layout v) u.creatable := by
      unfold partFrom Layout.part
      cases hc : u.creatable with
      | none => rfl
      | some c =>
        obtain ⟨t, e, -⟩ := (hu.creatable.2 c hc).train_locations.of_lt' hv'
        simp only [Option.map_some, Creatable.layout, if_neg hv', e]
    rw [this]
  have sp : Splits (fun _ => True) (fun i => Unit.layout v { u with hot_key := i }) (fun i => [.packed .l (.int i)]) := by
    obtain ⟨s0, s1, hs⟩ := Exactly.two hu.standing_graphic
    obtain ⟨p0, p1, hp⟩ := Exactly.two hu.placement_side_terrain
    obtain ⟨q0, q1, hq⟩ := Exactly.two hu.placement_terrain
    obtain ⟨c0, c1, hc⟩ := Exactly.two hu.clearance_size
    refine Splits.congr ?_ (fun y _ => Unit.layout_flat84 v { u with hot_key := y } s0 s1 p0 p1 q0 q1 c0 c1 hs hp hq hc hv')
    dsimp only
    walk Splits.here
  have sp' : Splits (fun _ => True) (fun i => Unit.layout v (u.setHotKey i)) (fun i => [.packed .l (.int i)]) :=
    Splits.congr sp fun i _ => lay i i
  obtain ⟨pre, post, h⟩ := edit_core (n := .record .Unit) hd hs hx sp'
  have hb : ∀ i, layoutBytes [.packed .l (.int i)] = intBytes 4 i := fun i => layoutBytes_singleton _
  have h : ∀ i, IsI32 i → DatFile.toBytes (p.set d (u.setHotKey i)) = .ok (pre ++ intBytes 4 i ++ post) ∧
        ∃ h', DatFile.fromBytes (ByteHandler.new (pre ++ intBytes 4 i ++ post)) = .ok (p.set d (u.setHotKey i), h') := by
    intro i hi
    have := h i trivial (Unit.setHotKey_wf hu hi fun h => absurd h hv') (Unit.keeps_any p d u _ hx)
    rw [hb] at this
    exact this
  refine ⟨pre, post, ?_, fun i k hi => ⟨?_, (h i hi).2⟩⟩
  · have := (h u.hot_key (hu.hot_key.of_lt' hv')).1
    rw [Unit.setHotKey_self hu, good.self] at this
    exact this
  · exact p.same_bytes hd hs hx (Unit.keeps_any p d u _ hx) (Unit.keeps_any p d u _ hx) ((lay i k).trans (lay i i).symm) (h i hi).1

/-- Since 8.8, the hot key of the first train location counts; that of the unit is ignored by the writer. -/
theorem C27_hot_key_since_88 (v : Version) (hv : 88 ≤ v.num) (d : DatFile) (hd : DatFile.WFAt v d) (p : Place .file (.record .Unit))
    (hs : p.Stored v) (u : Unit) (hx : p.get d = some u) (c : Creatable) (t : TrainLocation) (ts : List TrainLocation)
    (hc : u.creatable = some c) (ht : c.train_locations = t :: ts) :
    ∃ pre post, DatFile.toBytes d = .ok (pre ++ intBytes 4 t.hot_key_id ++ post) ∧
      ∀ i ignored, IsI32 i →
        DatFile.toBytes (p.set d { u.setHotKey i with hot_key := ignored }) = .ok (pre ++ intBytes 4 i ++ post) ∧
        ∃ h', DatFile.fromBytes (ByteHandler.new (pre ++ intBytes 4 i ++ post)) = .ok (p.set d (u.setHotKey i), h') := by
  have good := p.good v d u hd hs hx
  have hu : Unit.WF v u := good.wf
  have hcw := hu.creatable.2 c hc
  have hty : u.type ≠ 90 ∧ 70 ≤ u.type := hu.creatable.1.2 (by rw [hc]; rfl)
  have key := (hu.hot_key.of_ge' hv).1 c t ts hc ht
  have lay : ∀ i k, Unit.layout v { u.setHotKey i with hot_key := k } = Unit.layout v (u.setHotKey i) := by
    intro i k
    simp only [Unit.layout_eq, if_pos hv]
  have sp : Splits (fun _ => True) (fun i => Unit.layout v (u.setHotKey i)) (fun i => [.packed .l (.int i)]) := by
    have e : ∀ i, u.setHotKey i = { u with hot_key := i, creatable := some { c with train_locations := { t with hot_key_id := i } :: ts } } := by
      intro i; simp only [Unit.setHotKey, hc, Option.map_some, ht]
    simp only [e]
    simp only [Unit.layout_eq, if_pos hv]
    have inner : Splits (fun _ => True)
        (fun i => partFrom u.type 70 (Creatable.layout v) (some { c with train_locations := { t with hot_key_id := i } :: ts }))
        (fun i => [.packed .l (.int i)]) := by
      simp only [partFrom, Layout.part, if_pos hty, Creatable.layout, if_pos hv]
      apply Splits.right
      apply Splits.tailP (a0 := countI16 (t :: ts)) (fun _ _ => rfl)
      apply Splits.head
      simp only [each, List.flatMap_cons]
      apply Splits.left
      simp only [TrainLocation.layout_flat88 v _ hv]
      walk Splits.here
    walk inner
  obtain ⟨pre, post, h⟩ := edit_core (n := .record .Unit) hd hs hx sp
  have hb : ∀ i, layoutBytes [.packed .l (.int i)] = intBytes 4 i := fun i => layoutBytes_singleton _
  have h : ∀ i, IsI32 i → DatFile.toBytes (p.set d (u.setHotKey i)) = .ok (pre ++ intBytes 4 i ++ post) ∧
        ∃ h', DatFile.fromBytes (ByteHandler.new (pre ++ intBytes 4 i ++ post)) = .ok (p.set d (u.setHotKey i), h') := by
    intro i hi
    have := h i trivial (Unit.setHotKey_wf hu hi fun _ => ⟨c, t, ts, hc, ht⟩) (Unit.keeps_any p d u _ hx)
    rw [hb] at this
    exact this
  refine ⟨pre, post, ?_, fun i k hi => ⟨?_, (h i hi).2⟩⟩
  · have h32 : IsI32 t.hot_key_id := ((hcw.train_locations.of_ge' hv).2 t (by rw [ht]; exact List.mem_cons_self)).hot_key_id.of_ge' hv
    have := (h t.hot_key_id h32).1
    rw [← key, Unit.setHotKey_self hu, good.self, key] at this
    exact this
  · exact p.same_bytes hd hs hx (Unit.keeps_any p d u _ hx) (Unit.keeps_any p d u _ hx) (lay i k) (h i hi).1

end Genie
