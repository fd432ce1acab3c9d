import Verif.Spec.Counts
import Verif.Props.C17_Versions
import Verif.Props.C23_Sizes
/-!
# C36 – C38: what `to_bytes` refuses

`c.counted v x` (in `Verif/Spec/Counts.lean`) lists, for the counted lists of a record, the largest number of elements and the
actual one; the conditions `Mismatched`, `Homeless`, `UnknownVersion` are in `Verif/Spec/Errors.lean`.
-/

namespace Genie

/-! ## C36: counts -/

theorem fitsCount (w : Nat) (s : Bool) (m n : Nat)
    (h : (m : Int) + 1 = if s then (256 : Int) ^ w / 2 else (256 : Int) ^ w) (he : (256 : Int) ^ w % 2 = 0) :
    FitsInt w s n ↔ n ≤ m := by
  unfold FitsInt
  generalize (256 : Int) ^ w = k at *
  cases s <;> simp only [Bool.false_eq_true, if_false, if_true] at h ⊢ <;> omega

theorem RecordClass.counted_spec (c : RecordClass) (v : Version) (x : c.Obj) (p : Nat × Nat) (hp : p ∈ c.counted v x) :
    ∃ w s, Item.count w s p.2 ∈ c.layout v x ∧ (FitsInt w s p.2 ↔ p.2 ≤ p.1) := by
  have e1 : ∀ n : Nat, FitsInt 1 false n ↔ n ≤ 255 := fun n => fitsCount _ _ _ _ (by decide) (by decide)
  have e2 : ∀ n : Nat, FitsInt 2 true n ↔ n ≤ 32767 := fun n => fitsCount _ _ _ _ (by decide) (by decide)
  have e4 : ∀ n : Nat, FitsInt 4 false n ↔ n ≤ 4294967295 := fun n => fitsCount _ _ _ _ (by decide) (by decide)
  cases c with
  | Tech =>
    simp only [RecordClass.counted] at hp
    split at hp
    · rename_i h
      simp only [List.mem_cons, List.not_mem_nil, or_false] at hp
      subst hp
      refine ⟨2, true, ?_, e2 _⟩
      simp only [RecordClass.layout, Genie.Tech.layout, if_pos h, Layout.countI16, List.flatten_cons, List.mem_append, List.mem_singleton, true_or, or_true]
    · cases hp
  | Creatable =>
    simp only [RecordClass.counted] at hp
    split at hp
    · rename_i h
      simp only [List.mem_cons, List.not_mem_nil, or_false] at hp
      subst hp
      refine ⟨2, true, ?_, e2 _⟩
      simp only [RecordClass.layout, Genie.Creatable.layout, if_pos h, Layout.countI16, List.flatten_cons, List.mem_append, List.mem_singleton, true_or, or_true]
    · cases hp
  | Bird =>
    simp only [RecordClass.counted, List.mem_cons] at hp
    rcases hp with rfl | hp
    · refine ⟨2, true, ?_, e2 _⟩
      simp only [RecordClass.layout, Genie.Bird.layout, Layout.countI16, List.flatten_cons, List.mem_append, List.mem_singleton, true_or, or_true]
    · split at hp
      · rename_i h
        simp only [List.mem_cons, List.not_mem_nil, or_false] at hp
        subst hp
        refine ⟨2, true, ?_, e2 _⟩
        simp only [RecordClass.layout, Genie.Bird.layout, Layout.since, if_pos h, Layout.countI16, List.flatten_cons, List.mem_append, List.mem_singleton, true_or, or_true]
      · cases hp
  | UnitHeaders =>
    simp only [RecordClass.counted] at hp
    split at hp
    · cases hp
    · rename_i h
      split at hp
      · cases hp
      · rename_i tasks ht
        simp only [List.mem_cons, List.not_mem_nil, or_false] at hp
        subst hp
        refine ⟨2, true, ?_, e2 _⟩
        simp only [RecordClass.layout, Genie.UnitHeaders.layout, Layout.part, ne_eq, h, not_false_eq_true, if_true, ht, Layout.countI16, List.mem_append, List.mem_singleton, true_or, or_true]
  | _ =>
    simp only [RecordClass.counted, List.mem_cons, List.not_mem_nil, or_false] at hp
    try (
      (first | (rcases hp with rfl | rfl | rfl | rfl) | (rcases hp with rfl | rfl | rfl) | subst hp) <;> dsimp only <;>
      first
      | (refine ⟨2, true, ?_, e2 _⟩
         simp only [RecordClass.layout, Genie.Effect.layout, Genie.Sound.layout, Genie.Graphic.layout, Genie.Type50.layout, Genie.Civ.layout,
          Layout.countI16, List.flatten_cons, List.mem_append, List.mem_singleton, true_or, or_true]; done)
      | (refine ⟨1, false, ?_, e1 _⟩
         simp only [RecordClass.layout, Genie.TechTreeAge.layout, Genie.BuildingConnection.layout, Genie.UnitConnection.layout,
          Genie.ResearchConnection.layout, Genie.TechTree.layout, Genie.Unit.layout,
          Layout.countU8, List.flatten_cons, List.mem_append, List.mem_singleton, true_or, or_true]; done)
      | (refine ⟨4, false, ?_, e4 _⟩
         simp only [RecordClass.layout, Genie.RandomMaps.layout,
          Layout.countU32, List.flatten_cons, List.mem_append, List.mem_singleton, true_or, or_true]; done))

theorem Item.count_cause {w : Nat} {s : Bool} {n : Nat} (h : ¬ FitsInt w s n) : (Item.count w s n).cause = some .overflowError := by
  show (if FitsInt w s n then _ else _) = _
  rw [if_neg h]

/-- A counted list that is too long: the record is not written. -/
theorem C36_record_overlong (c : RecordClass) (v : Version) (x : c.Obj) (m n : Nat) (h : (m, n) ∈ c.counted v x) (hn : m < n) :
    ∃ e, c.toBytes v x = .error e := by
  obtain ⟨w, s, h1, h2⟩ := c.counted_spec v x _ h
  cases hw : c.toBytes v x with
  | error e => exact ⟨e, rfl⟩
  | ok bs =>
    have := ((C39_record_format c v x bs).1 hw).1 _ h1
    rw [Item.count_cause (fun k => absurd (h2.1 k) (by simpa using hn))] at this
    cases this

/-- If nothing else is wrong with the record, the exception is `OverflowError`. -/
theorem C36_record_overflow (c : RecordClass) (v : Version) (x : c.Obj) (m n : Nat) (h : (m, n) ∈ c.counted v x) (hn : m < n)
    (ho : ∀ i ∈ c.layout v x, (∀ w s k, i ≠ .count w s k) → i.cause = none) : c.toBytes v x = .error .overflowError := by
  obtain ⟨e, he⟩ := C36_record_overlong c v x m n h hn
  rw [he]
  obtain ⟨i, hi, hc⟩ := C39_record_error c v x e he
  cases i with
  | count w s k =>
    simp only [Item.cause] at hc
    split at hc
    · cases hc
    · cases hc; rfl
  | _ => rw [ho _ hi (fun _ _ _ k => (by cases k))] at hc; cases hc

/-- The other way round: what has been written has all its counts in range. -/
theorem C36_record_counts_fit (c : RecordClass) (v : Version) (x : c.Obj) (bs : Bytes) (hw : c.toBytes v x = .ok bs) :
    ∀ p ∈ c.counted v x, p.2 ≤ p.1 := by
  rintro ⟨m, n⟩ hp
  apply Nat.le_of_not_lt
  intro hn
  obtain ⟨e, he⟩ := C36_record_overlong c v x m n hp hn
  rw [hw] at he; cases he

theorem DatFile.counted_spec (v : Version) (d : DatFile) (p : Nat × Nat) (hp : p ∈ d.counted) (hn : p.1 < p.2) :
    ∃ w s, Item.count w s p.2 ∈ d.layoutAt v ∧ (FitsInt w s p.2 ↔ p.2 ≤ p.1) := by
  have e2 : ∀ n : Nat, FitsInt 2 true n ↔ n ≤ 32767 := fun n => fitsCount _ _ _ _ (by decide) (by decide)
  have e4 : ∀ n : Nat, FitsInt 4 true n ↔ n ≤ 2147483647 := fun n => fitsCount _ _ _ _ (by decide) (by decide)
  have et : (d.terrain_restrictions.headD default).passable_buildable_dmg_multiplier.length = d.terrainCount := by
    unfold DatFile.terrainCount
    cases d.terrain_restrictions <;> rfl
  simp only [DatFile.counted, List.mem_cons, List.not_mem_nil, or_false] at hp
  rcases hp with rfl | rfl | rfl | rfl | rfl | rfl | rfl | rfl | rfl <;> dsimp only
  · refine ⟨2, true, ?_, e2 _⟩
    simp only [DatFile.layoutAt, Layout.countI16, List.flatten_cons, List.mem_append, List.mem_singleton, true_or, or_true]
  · refine ⟨2, true, ?_, e2 _⟩
    rw [et] at hn ⊢
    have hi : d.terrainItems = [.count 2 true d.terrainCount] := by
      unfold DatFile.terrainItems DatFile.terrainCount at *
      cases hl : d.terrain_restrictions with
      | nil => rw [hl] at hn; exact absurd hn (by decide)
      | cons r l => rw [if_neg (by simp)]
    simp only [DatFile.layoutAt, hi, Layout.countI16, List.flatten_cons, List.mem_append, List.mem_singleton, true_or, or_true]
  · refine ⟨2, true, ?_, e2 _⟩
    simp only [DatFile.layoutAt, Layout.countI16, List.flatten_cons, List.mem_append, List.mem_singleton, true_or, or_true]
  · refine ⟨2, true, ?_, e2 _⟩
    simp only [DatFile.layoutAt, Layout.countI16, List.flatten_cons, List.mem_append, List.mem_singleton, true_or, or_true]
  · refine ⟨2, true, ?_, e2 _⟩
    simp only [DatFile.layoutAt, Layout.countI16, List.flatten_cons, List.mem_append, List.mem_singleton, true_or, or_true]
  · refine ⟨4, true, ?_, e4 _⟩
    simp only [DatFile.layoutAt, Layout.countI32, List.flatten_cons, List.mem_append, List.mem_singleton, true_or, or_true]
  · refine ⟨4, true, ?_, e4 _⟩
    simp only [DatFile.layoutAt, Layout.countI32, List.flatten_cons, List.mem_append, List.mem_singleton, true_or, or_true]
  · refine ⟨2, true, ?_, e2 _⟩
    simp only [DatFile.layoutAt, Layout.countI16, List.flatten_cons, List.mem_append, List.mem_singleton, true_or, or_true]
  · refine ⟨2, true, ?_, e2 _⟩
    simp only [DatFile.layoutAt, Layout.countI16, List.flatten_cons, List.mem_append, List.mem_singleton, true_or, or_true]

/-- A list of the file itself that is too long: nothing is written. -/
theorem C36_datfile_overlong (d : DatFile) (m n : Nat) (h : (m, n) ∈ d.counted) (hn : m < n) : ∃ e, DatFile.toBytes d = .error e := by
  cases hw : DatFile.toBytes d with
  | error e => exact ⟨e, rfl⟩
  | ok bs =>
    cases hv : Version.ofStr d.version with
    | error e => unfold DatFile.toBytes DatFile.toBytesGiven at hw; rw [hv] at hw; cases hw
    | ok v =>
      have h3 := ((DatFile.writesAt hv).ok bs hw).1
      obtain ⟨w, s, h1, h2⟩ := DatFile.counted_spec v d _ h (by simpa using hn)
      have := causes_eq_nil.1 h3 _ h1
      rw [Item.count_cause (fun k => absurd (h2.1 k) (by simpa using hn))] at this
      cases this

/-- A count anywhere in the file (in a unit, in a task list, …) that does not fit: nothing is written. -/
theorem C36_datfile_nested_overlong (d : DatFile) (w : Nat) (s : Bool) (n : Nat) (h : Item.count w s n ∈ d.layout)
    (hn : ¬ FitsInt w s n) : ∃ e, DatFile.toBytes d = .error e := by
  cases hw : DatFile.toBytes d with
  | error e => exact ⟨e, rfl⟩
  | ok bs =>
    have := ((C39_datfile_format d bs).1 hw).1 _ h
    rw [Item.count_cause hn] at this
    cases this

/-- An effect with 32768 commands. -/
example : Effect.toBytes .VER_88 { name := [], effect_commands := List.replicate 32768 default } = .error .overflowError := by
  refine C36_record_overflow .Effect .VER_88 { name := [], effect_commands := List.replicate 32768 default } 32767 32768
    (by rw [RecordClass.counted, List.length_replicate]; exact List.mem_singleton.2 rfl) (by omega) ?_
  intro i hi hk
  simp only [RecordClass.layout, Effect.layout, List.flatten_cons, List.flatten_nil, List.append_nil, List.mem_append, Layout.each,
    List.mem_flatMap] at hi
  rcases hi with hi | hi | ⟨c, hc, hi⟩
  · simp only [Layout.text, List.mem_singleton] at hi; subst hi; rfl
  · simp only [Layout.countI16, List.mem_singleton] at hi; exact absurd hi (hk _ _ _)
  · obtain rfl := List.eq_of_mem_replicate hc
    have : ∀ j ∈ EffectCommand.layout .VER_88 default, j.cause = none := by
      unfold EffectCommand.layout
      simp only [List.flatten_cons, List.flatten_nil, Layout.u8, Layout.i16, Layout.f32, List.cons_append, List.nil_append,
        List.forall_mem_cons]
      exact ⟨rfl, rfl, rfl, rfl, rfl, fun _ h => (by cases h)⟩
    exact this i hi

/-! ## C37: the exceptions -/

/-- The only exceptions that `to_bytes` of a record raises, and when it raises the special ones. -/
theorem C37_record_errors (c : RecordClass) (v : Version) (x : c.Obj) (e : PyErr) (h : c.toBytes v x = .error e) :
    ValueErr e ∨ (e = .assertionError ∧ c.Mismatched x) ∨ (e = .indexError ∧ c.Homeless v x) := by
  have h1 := (c.writes v x).error e h
  by_cases he : ValueErr e
  · exact .inl he
  · exact .inr ((c.causes_iff he).1 h1)

/-- Such records are never written. -/
theorem C37_record_refused (c : RecordClass) (v : Version) (x : c.Obj) (h : c.Mismatched x ∨ c.Homeless v x) :
    ∃ e, c.toBytes v x = .error e := by
  cases hw : c.toBytes v x with
  | error e => exact ⟨e, rfl⟩
  | ok bs =>
    have h1 := ((c.writes v x).ok bs hw).1
    have n1 : ¬ PlainErr .assertionError := by unfold PlainErr; simp
    have n2 : ¬ PlainErr .indexError := by unfold PlainErr; simp
    rcases h with h | h
    · have := (c.causes_iff (v := v) n1).2 (.inl ⟨rfl, h⟩); rw [h1] at this; cases this
    · have := (c.causes_iff (v := v) n2).2 (.inr ⟨rfl, h⟩); rw [h1] at this; cases this

/-- The only exceptions that saving a file object raises, and when it raises the special ones. -/
theorem C37_datfile_errors (d : DatFile) (e : PyErr) (h : DatFile.toBytes d = .error e) :
    ValueErr e ∨ (e = .assertionError ∧ d.Mismatched) ∨
      (e = .indexError ∧ ∃ v : Version, d.version = v.value ∧ d.Homeless v) ∨ (e = .valueError ∧ d.UnknownVersion) := by
  cases hv : Version.ofStr d.version with
  | error e' =>
    unfold DatFile.toBytes DatFile.toBytesGiven at h
    rw [hv] at h
    cases h
    refine .inr (.inr (.inr ⟨ofStr_error hv, fun v hk => ?_⟩))
    rw [← hk, C17_lookup] at hv
    cases hv
  | ok v =>
    have h1 := (DatFile.writesAt hv).error e h
    by_cases he : ValueErr e
    · exact .inl he
    · rcases (DatFile.causesAt_iff he).1 h1 with h2 | ⟨h2, h3⟩
      · exact .inr (.inl h2)
      · exact .inr (.inr (.inl ⟨h2, v, ofStr_ok hv, h3⟩))

/-- In these cases a file is never written. -/
theorem C37_datfile_refused (d : DatFile) (v : Version) (hv : d.version = v.value) (h : d.Mismatched ∨ d.Homeless v) :
    ∃ e, DatFile.toBytes d = .error e := by
  cases hw : DatFile.toBytes d with
  | error e => exact ⟨e, rfl⟩
  | ok bs =>
    have hv' : Version.ofStr d.version = .ok v := by rw [hv, C17_lookup]
    have h1 := ((DatFile.writesAt hv').ok bs hw).1
    have n1 : ¬ PlainErr .assertionError := by unfold PlainErr; simp
    have n2 : ¬ PlainErr .indexError := by unfold PlainErr; simp
    rcases h with h | h
    · have := (DatFile.causesAt_iff (v := v) n1).2 (.inl ⟨rfl, h⟩); rw [h1] at this; cases this
    · have := (DatFile.causesAt_iff (v := v) n2).2 (.inr ⟨rfl, h⟩); rw [h1] at this; cases this

/-- The three terrain tables are compared first: if their lengths differ the exception is `AssertionError`, whatever else is
wrong. -/
theorem C37_tables_mismatched (d : DatFile) (v : Version) (hv : d.version = v.value)
    (h : d.float_ptr_terrain_tables.length ≠ d.terrain_pass_graphic_pointers.length ∨
      d.terrain_pass_graphic_pointers.length ≠ d.terrain_restrictions.length) : DatFile.toBytes d = .error .assertionError := by
  unfold DatFile.toBytes DatFile.toBytesGiven
  rw [hv, C17_lookup]
  dsimp only
  rw [if_pos]
  omega

/-- A creatable without a train location: `IndexError` before 8.8 if its resource costs can be written; fine since 8.8. -/
theorem C37_creatable_homeless (v : Version) (x : Creatable) (hv : v.num < 88) (hx : x.train_locations = []) (bs : Bytes)
    (hc : writeClassArray ResourceCost.toBytes x.resource_costs v = .ok bs) :
    Creatable.toBytes v x = .error .indexError := by
  have h1 : ¬ v.ge .VER_88 = true := fun k => by have := (ge88_iff v).1 k; omega
  unfold Creatable.toBytes
  rw [if_neg h1]
  split
  · unfold Creatable.toBytes84; rw [hc, hx]; rfl
  · unfold Creatable.toBytes78; rw [hc, hx]; rfl

/-- The archer without train locations. -/
example : let u := { Sample.archer .VER_84 with creatable := (Sample.archer .VER_84).creatable.map fun c => { c with train_locations := [] } }
    u.Homeless .VER_84 ∧ errorOf (Unit.toBytes .VER_84 u) = some .indexError ∧
      (resultOf (Unit.toBytes .VER_88 u)).isSome = true := by
  refine ⟨⟨by decide, by decide, _, rfl, by decide, rfl⟩, ?_, ?_⟩ <;> decide +kernel

/-- A file whose tables have different lengths. -/
example : DatFile.toBytes { Sample.datFile .VER_88 with float_ptr_terrain_tables := [] } = .error .assertionError :=
  C37_tables_mismatched _ .VER_88 rfl (.inl (by decide))

/-! ## C38: `ValueError` -/

/-- Saving raises `ValueError` exactly if the version text is unknown. -/
theorem C38_value_error_iff (d : DatFile) : DatFile.toBytes d = .error .valueError ↔ d.UnknownVersion := by
  constructor
  · intro h
    rcases C37_datfile_errors d _ h with h | ⟨h, -⟩ | ⟨h, -⟩ | ⟨-, h⟩
    · rcases h with h | h | h <;> cases h
    · cases h
    · cases h
    · exact h
  · intro h
    unfold DatFile.toBytes DatFile.toBytesGiven
    rw [C17_lookup_unknown _ h]

end Genie
