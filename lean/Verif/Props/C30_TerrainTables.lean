import Verif.Props.C36_C37_Errors
import Verif.Proof.Clean
/-!
# C30: the terrain tables of a file
-/

namespace Genie
open Layout

/-- All values of the file are in range; nothing is said about the lengths of the terrain tables, except that the two counts
that are written for them fit. -/
structure DatFile.TerrainInRange (v : Version) (d : DatFile) : Prop where
  rest : DatFile.WFAt v { d with float_ptr_terrain_tables := [], terrain_pass_graphic_pointers := [], terrain_restrictions := [] }
  float_ptr_terrain_tables : AllOf IsI32 d.float_ptr_terrain_tables
  terrain_pass_graphic_pointers : AllOf IsI32 d.terrain_pass_graphic_pointers
  restriction_count : d.terrain_restrictions.length ≤ 32767
  terrain_count : ∀ r rs, d.terrain_restrictions = r :: rs → r.passable_buildable_dmg_multiplier.length ≤ 32767
  restrictions : ∀ r ∈ d.terrain_restrictions,
    AllOf IsF32 r.passable_buildable_dmg_multiplier ∧ AllOf (TerrainPassGraphic.WF v) r.terrain_pass_graphics

/-- The three tables have the same length, and so have the two lists of each restriction. -/
def DatFile.TablesAgree (d : DatFile) : Prop :=
  d.float_ptr_terrain_tables.length = d.terrain_pass_graphic_pointers.length ∧
  d.terrain_pass_graphic_pointers.length = d.terrain_restrictions.length ∧
  ∀ r ∈ d.terrain_restrictions, r.passable_buildable_dmg_multiplier.length = r.terrain_pass_graphics.length

/-- All restrictions are for the same number of terrains. -/
def DatFile.SameTerrainCount (d : DatFile) : Prop :=
  ∃ n, ∀ r ∈ d.terrain_restrictions, r.passable_buildable_dmg_multiplier.length = n

theorem terrainInRange_causes {v : Version} {d : DatFile} (h : d.TerrainInRange v) :
    (d.TablesAgree → causes (d.layoutAt v) = []) ∧ ∀ e ∈ causes (d.layoutAt v), e = .assertionError := by
  have h0 := DatFile.clean h.rest
  have hc : causes d.terrainItems = [] := by
    unfold DatFile.terrainItems
    split
    · rfl
    refine clean_count16.2 ?_
    unfold DatFile.terrainCount
    split
    · decide
    · exact h.terrain_count _ _ ‹_›
  have h16 : causes (countI16 d.terrain_restrictions) = [] := clean_countI16.2 h.restriction_count
  have hf : causes (each i32 d.float_ptr_terrain_tables) = [] := clean_each.2 fun x hx => clean_i32.2 (h.float_ptr_terrain_tables x hx)
  have hp : causes (each i32 d.terrain_pass_graphic_pointers) = [] := clean_each.2 fun x hx => clean_i32.2 (h.terrain_pass_graphic_pointers x hx)
  have hr1 : ∀ r ∈ d.terrain_restrictions, causes (each f32 r.passable_buildable_dmg_multiplier) = [] := fun r _ => clean_each.2 fun _ _ => rfl
  have hr2 : ∀ r ∈ d.terrain_restrictions, causes (each (TerrainPassGraphic.layout v) r.terrain_pass_graphics) = [] := fun r hr =>
    clean_each.2 fun x hx => RecordClass.clean .TerrainPassGraphic ((h.restrictions r hr).2 x hx)
  constructor
  · rintro ⟨a1, a2, a3⟩
    have hr : causes (each (TerrainRestriction.layout v) d.terrain_restrictions) = [] := clean_each.2 fun r hr => by
      unfold TerrainRestriction.layout
      simp only [clean_cons, causes_requires]
      exact ⟨a3 r hr, hr1 r hr, hr2 r hr, rfl⟩
    simp only [DatFile.layoutAt, clean_cons, causes_requires] at h0 ⊢
    simp only [h0, a1, a2, hc, h16, hf, hp, hr, true_and, and_true]
  · intro e he
    unfold DatFile.layoutAt at h0 he
    simp only [clean_cons] at h0
    simp only [mem_causes_cons, h0, hc, h16, hf, hp, List.not_mem_nil, false_or, mem_causes_requires] at he
    rcases he with he | he | he | he
    · exact he.2
    · exact he.2
    · obtain ⟨r, hr, he⟩ := mem_causes_each.1 he
      unfold TerrainRestriction.layout at he
      simp only [mem_causes_cons, hr1 r hr, hr2 r hr, List.not_mem_nil, false_or, mem_causes_requires] at he
      rcases he with he | he
      · exact he.2
      · cases he
    · cases he

/-- If the values are in range, saving raises `AssertionError` exactly if the tables do not agree, and no other exception. -/
theorem C30_assertion_iff (v : Version) (d : DatFile) (h : d.TerrainInRange v) :
    (DatFile.toBytes d = .error .assertionError ↔ ¬ d.TablesAgree) ∧ ((∃ bs, DatFile.toBytes d = .ok bs) ↔ d.TablesAgree) := by
  have hv := (versionNames_spec h.rest.version).1
  have hw := DatFile.writesAt (x := d) hv
  by_cases ha : d.TablesAgree
  · have := hw.ok_of ((terrainInRange_causes h).1 ha)
    rw [this]
    simp [ha]
  · have hm : d.Mismatched := by
      unfold DatFile.Mismatched
      by_cases h1 : d.float_ptr_terrain_tables.length = d.terrain_pass_graphic_pointers.length
      · by_cases h2 : d.terrain_pass_graphic_pointers.length = d.terrain_restrictions.length
        · refine .inr (.inr (.inl ?_))
          refine Classical.byContradiction fun hn => ha ⟨h1, h2, fun r hr => ?_⟩
          exact Classical.byContradiction fun hk => hn ⟨r, hr, hk⟩
        · exact .inr (.inl h2)
      · exact .inl h1
    obtain ⟨e, he⟩ := C37_datfile_refused d v (ofStr_ok hv) (.inl hm)
    have := (terrainInRange_causes h).2 e (hw.error e he)
    subst this
    rw [he]
    simp [ha]

/-- If they agree, the file is written even if the restrictions are for different numbers of terrains; it comes back
unchanged exactly if they are not. -/
theorem C30_read_back_iff (v : Version) (d : DatFile) (h : d.TerrainInRange v) (ha : d.TablesAgree) :
    ∃ bs, DatFile.toBytes d = .ok bs ∧
      ((∃ h', DatFile.fromBytes (ByteHandler.new bs) = .ok (d, h')) ↔ d.SameTerrainCount) := by
  obtain ⟨bs, hb⟩ := (C30_assertion_iff v d h).2.2 ha
  refine ⟨bs, hb, (C13_round_trips_iff d bs hb).trans ?_⟩
  constructor
  · rintro ⟨w, hw⟩
    obtain ⟨n, -, hn⟩ := hw.terrain_restrictions
    exact ⟨n, fun r hr => (hn.2 r hr).passable_buildable_dmg_multiplier.1⟩
  · rintro ⟨n, hn⟩
    refine ⟨v, { h.rest with
      float_ptr_terrain_tables := ⟨ha.1.trans ha.2.1, h.float_ptr_terrain_tables⟩
      terrain_pass_graphic_pointers := ⟨ha.2.1, h.terrain_pass_graphic_pointers⟩
      terrain_restrictions := ?_ }⟩
    cases hl : d.terrain_restrictions with
    | nil => exact ⟨0, by decide, by decide, fun r hr => (by cases hr)⟩
    | cons r rs =>
      have hnn : n ≤ 32767 := by
        rw [← hn r (hl ▸ List.mem_cons_self)]; exact h.terrain_count r rs hl
      refine ⟨n, hnn, hl ▸ h.restriction_count, fun r' hr' => ?_⟩
      rw [← hl] at hr'
      exact { passable_buildable_dmg_multiplier := ⟨hn r' hr', (h.restrictions r' hr').1⟩
              terrain_pass_graphics := ⟨(ha.2.2 r' hr').symm.trans (hn r' hr'), (h.restrictions r' hr').2⟩ }

/-- The number of terrains that is written (the two bytes at offset 10) is that of the first restriction, 0 if there is none. -/
theorem C30_count_written (d : DatFile) (bs : Bytes) (v : Version) (hv : (d.version, v) ∈ versionNames) (hw : DatFile.toBytes d = .ok bs) :
    (bs.drop 10).take 2 = natLE 2 (match d.terrain_restrictions with | [] => 0 | r :: _ => r.passable_buildable_dmg_multiplier.length) := by
  obtain ⟨-, rfl⟩ := (DatFile.writesAt (versionNames_spec hv).1).ok bs hw
  have hlen : utf8Len d.version = 7 := by
    have : ∀ p ∈ versionNames, utf8Len p.1 = 7 := by decide +kernel
    exact this _ hv
  have e1 : ∀ i : Item, layoutBytes [i] = i.bytes := fun i => by simp [layoutBytes]
  have e2 : ∀ c [Decidable c] e, layoutBytes (requires c e) = [] := fun _ _ _ => rfl
  simp only [DatFile.layoutAt, List.flatten_cons, layoutBytes_append, countI16, e1, e2, List.nil_append]
  have e3 : (Item.fixedText 8 d.version).bytes.length = 8 := by
    simp only [Item.bytes, List.length_append, utf8_length, List.length_replicate, hlen]; decide
  have e4 : ∀ w s n, (Item.count w s n).bytes = natLE w n := fun _ _ _ => rfl
  have e5 : layoutBytes d.terrainItems =
      natLE 2 (match d.terrain_restrictions with | [] => 0 | r :: _ => r.passable_buildable_dmg_multiplier.length) := by
    unfold DatFile.terrainItems DatFile.terrainCount
    cases d.terrain_restrictions with
    | nil => rfl
    | cons r l => rw [if_neg (by simp), e1, e4]
  rw [List.drop_append, List.drop_eq_nil_of_le (by omega), List.nil_append, e3, e4, e5, List.drop_append, natLE_len,
    List.drop_eq_nil_of_le (by rw [natLE_len]; decide), List.nil_append]
  exact List.take_left' (natLE_len _ _)

/-- A file whose second restriction is for one terrain less. -/
def Sample.unevenFile : DatFile := { Sample.datFile .VER_88 with
  terrain_restrictions := [Sample.terrainRestriction,
    { passable_buildable_dmg_multiplier := [Sample.f25], terrain_pass_graphics := [Sample.passGraphic] }] }

example : Sample.unevenFile.TerrainInRange .VER_88 ∧ Sample.unevenFile.TablesAgree ∧ ¬ Sample.unevenFile.SameTerrainCount := by
  have hd := Sample.datFile_wf .VER_88 (by decide)
  refine ⟨⟨?_, by decide, by decide, by decide, ?_, ?_⟩, ⟨by decide, by decide, by decide⟩, ?_⟩
  · exact { hd with
      float_ptr_terrain_tables := ⟨rfl, by decide⟩, terrain_pass_graphic_pointers := ⟨rfl, by decide⟩,
      terrain_restrictions := ⟨0, by decide, by decide, by decide⟩ }
  · intro r rs h; cases h; decide
  · decide +kernel
  · rintro ⟨n, hn⟩
    have h1 := hn Sample.terrainRestriction (by simp [Sample.unevenFile])
    have h2 := hn { passable_buildable_dmg_multiplier := [Sample.f25], terrain_pass_graphics := [Sample.passGraphic] } (by simp [Sample.unevenFile])
    have e1 : Sample.terrainRestriction.passable_buildable_dmg_multiplier.length = 2 := rfl
    simp only [List.length_cons, List.length_nil] at h2
    omega

end Genie
