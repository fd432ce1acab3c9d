import Verif.Spec.Errors
import Verif.Proof.Records.Plain
import Verif.Proof.Records.Sizes
/-! # Where `AssertionError`, `IndexError` and `ValueError` come from -/

namespace Genie

/-- Not a `ValueErr`. -/
theorem Plain.no {its : List Item} (h : Plain its) {e : PyErr} (he : ¬ PlainErr e) : e ∉ causes its := fun k => he (h e k)

theorem mem_causes_cons {e : PyErr} {a : List Item} {l : List (List Item)} :
    e ∈ causes (a :: l).flatten ↔ e ∈ causes a ∨ e ∈ causes l.flatten := by
  rw [List.flatten_cons]; exact mem_causes_append

theorem TerrainRestriction.causes_iff {v : Version} {x : TerrainRestriction} {e : PyErr} (he : ¬ PlainErr e) :
    e ∈ causes (x.layout v) ↔ e = .assertionError ∧ x.Mismatched := by
  unfold TerrainRestriction.layout TerrainRestriction.Mismatched
  rw [mem_causes_cons, mem_causes_requires]
  have : Plain (List.flatten [Layout.each Layout.f32 x.passable_buildable_dmg_multiplier,
    Layout.each (TerrainPassGraphic.layout v) x.terrain_pass_graphics]) := by plain
  simp only [this.no he, or_false, and_comm, ne_eq]

theorem RandomMaps.causes_iff {v : Version} {x : RandomMaps} {e : PyErr} (he : ¬ PlainErr e) :
    e ∈ causes (x.layout v) ↔ e = .assertionError ∧ x.Mismatched := by
  unfold RandomMaps.layout RandomMaps.Mismatched
  rw [mem_causes_cons, mem_causes_requires]
  have : Plain (List.flatten [Layout.countU32 x.map_info_1, Layout.i32 x.random_maps_ptr,
    Layout.each (MapInfo.layout v) x.map_info_1, Layout.each (MapInfo.layout v) x.map_info_2]) := by plain
  simp only [this.no he, or_false, and_comm, ne_eq]

theorem Creatable.causes_iff {v : Version} {x : Creatable} {e : PyErr} (he : ¬ PlainErr e) :
    e ∈ causes (x.layout v) ↔ e = .indexError ∧ x.Homeless v := by
  unfold Creatable.layout Creatable.Homeless
  rw [mem_causes_append]
  have : Plain (Layout.each (ResourceCost.layout v) x.resource_costs) := Plain.classesI _
  simp only [this.no he, false_or]
  by_cases h : 88 ≤ v.num
  · rw [if_pos h]
    refine iff_of_false (Plain.no ?_ he) (fun k => by omega)
    plain
  · rw [if_neg h]
    cases hx : x.train_locations with
    | nil => simp [mem_causes_requires]; intro; omega
    | cons t ts =>
      refine iff_of_false (Plain.no ?_ he) (by simp)
      plain

theorem Unit.causes_iff {v : Version} {x : Unit} {e : PyErr} (he : ¬ PlainErr e) :
    e ∈ causes (x.layout v) ↔ e = .indexError ∧ x.Homeless v := by
  unfold Unit.layout Unit.Homeless
  simp only [mem_causes_cons, mem_causes_part (f := Creatable.layout v), Creatable.causes_iff he]
  simp only [(Plain.block _ _).no he, (Plain.classesI (f := ResourceStorage.layout) _).no he,
    (Plain.classesI (f := DamageGraphic.layout) _).no he, (Plain.countU8 _).no he, (Plain.u8 _).no he, (Plain.i16 _).no he,
    (Plain.i32 _).no he, (Plain.text _).no he, (Plain.part Plain.f32 _).no he, (Plain.partI (f := DeadFish.layout) _).no he,
    (Plain.partI (f := Bird.layout) _).no he, (Plain.partI (f := Type50.layout) _).no he,
    (Plain.partI (f := Projectile.layout) _).no he, (Plain.partI (f := Building.layout) _).no he, Plain.fnil.no he,
    false_or, or_false]
  constructor
  · rintro ⟨⟨h1, h2⟩, c, h3, h4, h5⟩; exact ⟨h4, h1, h2, c, h3, h5⟩
  · rintro ⟨h4, h1, h2, c, h3, h5⟩; exact ⟨⟨h1, h2⟩, c, h3, h4, h5⟩

theorem Civ.causes_iff {v : Version} {x : Civ} {e : PyErr} (he : ¬ PlainErr e) :
    e ∈ causes (x.layout v) ↔ e = .indexError ∧ x.Homeless v := by
  unfold Civ.layout Civ.Homeless
  simp only [mem_causes_cons, mem_causes_eachPresent, Unit.causes_iff he]
  simp only [(Plain.countI16 _).no he, (Plain.u8 _).no he, (Plain.i16 _).no he,
    (Plain.text _).no he, (Plain.each Plain.f32 _).no he, (Plain.pointers _).no he, Plain.fnil.no he,
    false_or, or_false]
  constructor
  · rintro ⟨u, h1, h2, h3⟩; exact ⟨h2, u, h1, h3⟩
  · rintro ⟨h2, u, h1, h3⟩; exact ⟨u, h1, h2, h3⟩

set_option maxRecDepth 4000 in
theorem DatFile.causesAt_iff {v : Version} {x : DatFile} {e : PyErr} (he : ¬ PlainErr e) :
    e ∈ causes (x.layoutAt v) ↔ (e = .assertionError ∧ x.Mismatched) ∨ (e = .indexError ∧ x.Homeless v) := by
  unfold DatFile.layoutAt DatFile.Mismatched DatFile.Homeless
  have h8 : Plain [Item.fixedText 8 x.version] := Plain.item (fun _ _ h => (by cases h))
  have h2 : Plain x.terrainItems := by
    unfold DatFile.terrainItems; split <;> exact Plain.item (fun _ _ h => (by cases h))
  simp only [mem_causes_cons, mem_causes_requires, mem_causes_each (f := TerrainRestriction.layout v), TerrainRestriction.causes_iff he,
    RandomMaps.causes_iff he, mem_causes_each (f := Civ.layout v), Civ.causes_iff he]
  simp only [h8.no he, h2.no he, (Plain.countI16 _).no he, (Plain.countI32 _).no he, (Plain.i32 _).no he, (Plain.each Plain.i32 _).no he,
    (Plain.pointers _).no he, (Plain.classesI (f := PlayerColour.layout) _).no he, (Plain.classesI (f := Sound.layout) _).no he,
    (Plain.classesOptI (f := Graphic.layout) _).no he, (Plain.classI (f := TerrainBlock.layout) _).no he,
    (Plain.classesI (f := Effect.layout) _).no he, (Plain.classesI (f := UnitHeaders.layout) _).no he,
    (Plain.classesI (f := Tech.layout) _).no he, (Plain.classI (f := TechTree.layout) _).no he, Plain.fnil.no he,
    false_or, or_false]
  constructor
  · rintro (⟨h, rfl⟩ | ⟨h, rfl⟩ | ⟨r, h1, rfl, h⟩ | ⟨rfl, h⟩ | ⟨c, h1, rfl, h⟩)
    · exact .inl ⟨rfl, .inl h⟩
    · exact .inl ⟨rfl, .inr (.inl h)⟩
    · exact .inl ⟨rfl, .inr (.inr (.inl ⟨r, h1, h⟩))⟩
    · exact .inl ⟨rfl, .inr (.inr (.inr h))⟩
    · exact .inr ⟨rfl, c, h1, h⟩
  · rintro (⟨rfl, h | h | ⟨r, h1, h⟩ | h⟩ | ⟨rfl, c, h1, h⟩)
    · exact .inl ⟨h, rfl⟩
    · exact .inr (.inl ⟨h, rfl⟩)
    · exact .inr (.inr (.inl ⟨r, h1, rfl, h⟩))
    · exact .inr (.inr (.inr (.inl ⟨rfl, h⟩)))
    · exact .inr (.inr (.inr (.inr ⟨c, h1, rfl, h⟩)))

theorem RecordClass.causes_iff (c : RecordClass) {v : Version} {x : c.Obj} {e : PyErr} (he : ¬ PlainErr e) :
    e ∈ causes (c.layout v x) ↔ (e = .assertionError ∧ c.Mismatched x) ∨ (e = .indexError ∧ c.Homeless v x) := by
  cases c with
  | TerrainRestriction n => exact Iff.trans (Genie.TerrainRestriction.causes_iff (v := v) (x := x) he) (by simp [RecordClass.Mismatched, RecordClass.Homeless])
  | RandomMaps => exact Iff.trans (Genie.RandomMaps.causes_iff (v := v) (x := x) he) (by simp [RecordClass.Mismatched, RecordClass.Homeless])
  | Creatable => exact Iff.trans (Genie.Creatable.causes_iff (v := v) (x := x) he) (by simp [RecordClass.Mismatched, RecordClass.Homeless])
  | Unit => exact Iff.trans (Genie.Unit.causes_iff (v := v) (x := x) he) (by simp [RecordClass.Mismatched, RecordClass.Homeless])
  | Civ => exact Iff.trans (Genie.Civ.causes_iff (v := v) (x := x) he) (by simp [RecordClass.Mismatched, RecordClass.Homeless])
  | _ =>
    simp only [RecordClass.layout, RecordClass.Mismatched, RecordClass.Homeless, and_false, or_self, iff_false]
    exact Plain.no (Plain.classI _) he

end Genie
