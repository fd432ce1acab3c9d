import Verif.Spec.Convert
/-!
# What is dropped when saving as another version was not going to be written
-/

namespace Genie
open Layout

theorem each_map_eq {f : α → List Item} {g : α → α} {l : List α} (h : ∀ x, f (g x) = f x) : each f (l.map g) = each f l := by
  unfold each
  rw [List.flatMap_map]
  exact congrArg (fun k => l.flatMap k) (funext h)

theorem eachPresent_map_eq {f : α → List Item} {g : α → α} {l : List (Option α)} (h : ∀ x, f (g x) = f x) :
    eachPresent f (l.map fun o => o.map g) = eachPresent f l := by
  unfold eachPresent each
  induction l with
  | nil => rfl
  | cons a l ih =>
    cases a with
    | none => simpa using ih
    | some a => simp only [List.map_cons, Option.map_some, List.filterMap_cons_some (rfl : id (some _) = some _), List.flatMap_cons, ih, h]

theorem pointers_map_eq {g : α → α} {l : List (Option α)} : pointers (l.map fun o => o.map g) = pointers l := by
  unfold pointers
  rw [List.map_map]
  congr 1
  funext o
  cases o <;> rfl

theorem countI16_map {g : α → β} {l : List α} : countI16 (l.map g) = countI16 l := by
  unfold countI16; rw [List.length_map]

theorem countI32_map {g : α → β} {l : List α} : countI32 (l.map g) = countI32 l := by
  unfold countI32; rw [List.length_map]

theorem part_map {c : Prop} [Decidable c] {f : α → List Item} {g : α → α} {o : Option α} (h : ∀ x, f (g x) = f x) :
    part c f (o.map g) = part c f o := by
  unfold part
  cases o with
  | none => rfl
  | some a => simp only [Option.map_some, h]

theorem Task.layout_asVersion (w : Version) (x : Task) : Task.layout w (x.asVersion w) = Task.layout w x := by
  unfold Task.asVersion
  by_cases h : 88 ≤ w.num
  · rw [if_pos h]
  · rw [if_neg h]; simp only [Task.layout, if_neg h]

theorem UnitHeaders.layout_asVersion (w : Version) (x : UnitHeaders) : UnitHeaders.layout w (x.asVersion w) = UnitHeaders.layout w x := by
  unfold UnitHeaders.layout UnitHeaders.asVersion
  dsimp only
  congr 1
  refine part_map (fun l => ?_)
  rw [countI16_map, each_map_eq (Task.layout_asVersion w)]

theorem Bird.layout_asVersion (w : Version) (x : Bird) : Bird.layout w (x.asVersion w) = Bird.layout w x := by
  unfold Bird.layout Bird.asVersion
  dsimp only
  rw [countI16_map, each_map_eq (Task.layout_asVersion w)]

theorem Type50.layout_asVersion (w : Version) (x : Type50) : Type50.layout w (x.asVersion w) = Type50.layout w x := by
  unfold Type50.asVersion
  by_cases h : 84 ≤ w.num
  · rw [if_pos h]
  · rw [if_neg h]; simp only [Type50.layout, since, if_neg h]

theorem Creatable.layout_asVersion (w : Version) (hk : Int) (x : Creatable) :
    Creatable.layout w (x.asVersion w hk) = Creatable.layout w x := by
  unfold Creatable.asVersion Creatable.layout
  by_cases h : 88 ≤ w.num
  · have h' : 84 ≤ w.num := by omega
    simp only [if_pos h, if_pos h']
  · by_cases h' : 84 ≤ w.num
    · simp only [if_neg h, if_pos h']
      cases x.train_locations <;> rfl
    · simp only [if_neg h, if_neg h']
      cases x.train_locations <;> rfl

theorem Unit.layout_asVersion (w : Version) (x : Unit) : Unit.layout w (x.asVersion w) = Unit.layout w x := by
  unfold Unit.layout Unit.asVersion
  dsimp only
  rw [part_map (Bird.layout_asVersion w), part_map (Type50.layout_asVersion w), part_map (Creatable.layout_asVersion w _)]
  by_cases h : 88 ≤ w.num
  · simp only [if_pos h]
  · simp only [if_neg h, Unit.hotKeyAs]

theorem Civ.layout_asVersion (w : Version) (x : Civ) : Civ.layout w (x.asVersion w) = Civ.layout w x := by
  unfold Civ.layout Civ.asVersion
  dsimp only
  rw [countI16_map, pointers_map_eq, eachPresent_map_eq (Unit.layout_asVersion w)]

theorem Tech.layout_asVersion (w : Version) (x : Tech) : Tech.layout w (x.asVersion w) = Tech.layout w x := by
  unfold Tech.layout Tech.asVersion
  by_cases h : 88 ≤ w.num
  · simp only [if_pos h]
  · simp only [if_neg h, Tech.location84]
    cases x.research_locations <;> rfl

theorem DatFile.layoutAt_asVersion (w : Version) (x : DatFile) :
    DatFile.layoutAt w (x.asVersion w) = DatFile.layoutAt w { x with version := w.value } := by
  unfold DatFile.layoutAt DatFile.asVersion DatFile.terrainItems DatFile.terrainCount
  dsimp only
  rw [countI32_map, each_map_eq (UnitHeaders.layout_asVersion w), countI16_map, each_map_eq (Civ.layout_asVersion w), countI16_map,
    each_map_eq (Tech.layout_asVersion w)]

end Genie
