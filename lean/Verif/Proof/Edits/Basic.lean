import Verif.Spec.Edits
import Verif.Spec.Sizes
import Verif.Proof.Clean
/-!
# Layouts in which one piece varies
-/

namespace Genie
open Layout

/-- `g y` consists of `f y` between two fixed pieces, for all `y` with `P y`. -/
def Splits (P : β → Prop) (g f : β → List Item) : Prop := ∃ A B, ∀ y, P y → g y = A ++ f y ++ B

namespace Splits
variable {P Q : β → Prop} {g f : β → List Item}

theorem here : Splits P f f := ⟨[], [], fun y _ => by simp⟩

theorem head {r : List (List Item)} (h : Splits P g f) : Splits P (fun y => List.flatten (g y :: r)) f := by
  obtain ⟨A, B, h⟩ := h
  exact ⟨A, B ++ r.flatten, fun y hy => by dsimp only at h ⊢; rw [List.flatten_cons, h y hy]; simp [List.append_assoc]⟩

theorem tail {a : List Item} {r : β → List (List Item)} (h : Splits P (fun y => List.flatten (r y)) f) :
    Splits P (fun y => List.flatten (a :: r y)) f := by
  obtain ⟨A, B, h⟩ := h
  exact ⟨a ++ A, B, fun y hy => by dsimp only at h ⊢; rw [List.flatten_cons, h y hy]; simp [List.append_assoc]⟩

theorem left {r : List Item} (h : Splits P g f) : Splits P (fun y => g y ++ r) f := by
  obtain ⟨A, B, h⟩ := h
  exact ⟨A, B ++ r, fun y hy => by dsimp only at h ⊢; rw [h y hy]; simp [List.append_assoc]⟩

theorem right {a : List Item} (h : Splits P g f) : Splits P (fun y => a ++ g y) f := by
  obtain ⟨A, B, h⟩ := h
  exact ⟨a ++ A, B, fun y hy => by dsimp only at h ⊢; rw [h y hy]; simp [List.append_assoc]⟩

theorem imp (h : Splits Q g f) (k : ∀ y, P y → Q y) : Splits P g f := by
  obtain ⟨A, B, h⟩ := h
  exact ⟨A, B, fun y hy => h y (k y hy)⟩

theorem congr {g' : β → List Item} (h : Splits P g' f) (k : ∀ y, P y → g y = g' y) : Splits P g f := by
  obtain ⟨A, B, h⟩ := h
  exact ⟨A, B, fun y hy => (k y hy).trans (h y hy)⟩

theorem elem {l : List β} {i : Nat} {m : β} (h : l[i]? = some m) : Splits P (fun y => each f (l.set i y)) f := by
  have hi : i < l.length := (List.getElem?_eq_some_iff.1 h).1
  refine ⟨each f (l.take i), each f (l.drop (i + 1)), fun y _ => ?_⟩
  dsimp only [each]
  rw [List.set_eq_take_append_cons_drop, if_pos hi]
  simp [List.append_assoc]

theorem present {l : List (Option β)} {i : Nat} {m : β} (h : slotAt l i = some m) :
    Splits P (fun y => eachPresent f (l.set i (some y))) f := by
  have hi : i < l.length := by
    unfold slotAt at h
    cases hl : l[i]? with
    | none => rw [hl] at h; cases h
    | some o => exact (List.getElem?_eq_some_iff.1 hl).1
  refine ⟨eachPresent f (l.take i), eachPresent f (l.drop (i + 1)), fun y _ => ?_⟩
  dsimp only [eachPresent, each]
  rw [List.set_eq_take_append_cons_drop, if_pos hi]
  simp [List.append_assoc]

theorem part {c : Prop} [Decidable c] (hc : c) : Splits P (fun y => Layout.part c f (some y)) f := by
  refine ⟨[], [], fun y _ => ?_⟩
  simp [Layout.part, hc]

end Splits

theorem countU8_set (l : List α) (i : Nat) (y : α) : countU8 (l.set i y) = countU8 l := by simp [countU8]
theorem countI16_set (l : List α) (i : Nat) (y : α) : countI16 (l.set i y) = countI16 l := by simp [countI16]
theorem countI32_set (l : List α) (i : Nat) (y : α) : countI32 (l.set i y) = countI32 l := by simp [countI32]
theorem countU32_set (l : List α) (i : Nat) (y : α) : countU32 (l.set i y) = countU32 l := by simp [countU32]

theorem slotAt_eq {l : List (Option α)} {i : Nat} {m : α} (h : slotAt l i = some m) : l[i]? = some (some m) := by
  unfold slotAt at h
  cases hl : l[i]? with
  | none => rw [hl] at h; cases h
  | some o => rw [hl] at h; cases o with
    | none => cases h
    | some m' => cases h; rfl

theorem pointers_set {l : List (Option α)} {i : Nat} {m y : α} (h : slotAt l i = some m) :
    pointers (l.set i (some y)) = pointers l := by
  have := slotAt_eq h
  obtain ⟨hi, he⟩ := List.getElem?_eq_some_iff.1 this
  unfold pointers
  apply List.ext_getElem
  · simp
  · intro k h1 h2
    simp only [List.getElem_map, List.getElem_set]
    by_cases hk : i = k
    · subst hk; simp [he]
    · simp [hk]

theorem set_self {l : List α} {i : Nat} {m : α} (h : l[i]? = some m) : l.set i m = l := by
  obtain ⟨hi, he⟩ := List.getElem?_eq_some_iff.1 h
  rw [← he]
  exact List.set_getElem_self hi

theorem get_set_elem {l : List α} {i : Nat} {m : α} (h : l[i]? = some m) (y : α) : (l.set i y)[i]? = some y := by
  obtain ⟨hi, -⟩ := List.getElem?_eq_some_iff.1 h
  rw [List.getElem?_set_self hi]

theorem get_set_slot {l : List (Option α)} {i : Nat} {m : α} (h : slotAt l i = some m) (y : α) : slotAt (l.set i (some y)) i = some y := by
  unfold slotAt
  rw [get_set_elem (slotAt_eq h)]
  rfl

theorem AllOf.elem {p : α → Prop} {l : List α} (h : AllOf p l) {i : Nat} {m : α} (hi : l[i]? = some m) : p m :=
  h m (List.mem_of_getElem? hi)

theorem AllOf.set {p : α → Prop} {l : List α} (h : AllOf p l) {y : α} (hy : p y) (i : Nat) : AllOf p (l.set i y) := by
  intro z hz
  rcases List.mem_or_eq_of_mem_set hz with hz | rfl
  · exact h z hz
  · exact hy

theorem UpTo.set {p : α → Prop} {n : Nat} {l : List α} (h : UpTo n p l) {y : α} (hy : p y) (i : Nat) : UpTo n p (l.set i y) :=
  ⟨by rw [List.length_set]; exact h.1, AllOf.set h.2 hy i⟩

theorem Exactly.set {p : α → Prop} {n : Nat} {l : List α} (h : Exactly n p l) {y : α} (hy : p y) (i : Nat) : Exactly n p (l.set i y) :=
  ⟨by rw [List.length_set]; exact h.1, AllOf.set h.2 hy i⟩

theorem ifSome_some {p : α → Prop} {y : α} (h : p y) : IfSome p (some y) := fun _ hz => Option.some.inj hz ▸ h

theorem PresentIff.set {c : Prop} {p : α → Prop} {o : Option α} {m y : α} (h : PresentIff c p o) (ho : o = some m) (hy : p y) :
    PresentIff c p (some y) :=
  ⟨by rw [h.1, ho]; simp, ifSome_some hy⟩

/-- Take the layout apart until the varying piece is reached. -/
macro "walk " t:term : tactic => `(tactic| (repeat (first | ((with_reducible apply Splits.head); exact $t) | with_reducible apply Splits.tail)))

/-- A part that units from type `k` on have. -/
def partFrom (t k : Int) (f : α → List Item) (o : Option α) : List Item := part (t ≠ 90 ∧ k ≤ t) f o
/-- A part that units of type `k` have. -/
def partOf (t k : Int) (f : α → List Item) (o : Option α) : List Item := part (t = k) f o

theorem Unit.layout_eq (v : Version) (x : Unit) : x.layout v =
  List.flatten [
    block (if 88 ≤ v.num then "bhllhhhhhbhfbfffhhhhbbhbhbbhhhhffbbhbhfbbbbbfbllbbbbbbbbbhbbfffll" else
      "bhllhhhhhbhfbfffhhhhbbhbhbbhhhhffbbhbhfbbbbbfblllbbbbbbbbbhbbfffll") ([.int x.type, .int x.id, .int
      x.language_dll_name, .int x.language_dll_creation, .int x.class_] ++ x.standing_graphic.map Val.int ++ [.int
      x.dying_graphic, .int x.undead_graphic, .int x.undead_mode, .int x.hit_points, .float x.line_of_sight, .int
      x.garrison_capacity, .float x.collision_size_x, .float x.collision_size_y, .float x.collision_size_z, .int
      x.train_sound, .int x.damage_sound, .int x.dead_unit_id, .int x.blood_unit_id, .int x.sort_number, .int
      x.can_be_built_on, .int x.icon_id, .int x.hide_in_editor, .int x.old_portrait_pict, .int x.enabled, .int x.disabled] ++
      x.placement_side_terrain.map Val.int ++ x.placement_terrain.map Val.int ++ x.clearance_size.map Val.float ++ [.int
      x.hill_mode, .int x.fog_visibility, .int x.terrain_restriction, .int x.fly_mode, .int x.resource_capacity, .float
      x.resource_decay, .int x.blast_defense_level, .int x.combat_level, .int x.interaction_mode, .int x.minimap_mode, .int
      x.interface_kind, .float x.multiple_attribute_mode, .int x.minimap_color, .int x.language_dll_help, .int
      x.language_dll_hotkey_text] ++ (if 88 ≤ v.num then [] else [.int x.hot_key]) ++ [.int x.recyclable, .int
      x.enable_auto_gather, .int x.create_doppelganger_on_death, .int x.resource_gather_group, .int x.occlusion_mode, .int
      x.obstruction_type, .int x.obstruction_class, .int x.trait, .int x.civilization, .int x.nothing, .int
      x.selection_effect, .int x.editor_selection_colour, .float x.outline_size_x, .float x.outline_size_y, .float
      x.outline_size_z, .int x.scenario_triggers_1, .int x.scenario_triggers_2]),
    each (ResourceStorage.layout v) x.resource_storages,
    countU8 x.damage_graphics,
    each (DamageGraphic.layout v) x.damage_graphics,
    i16 x.selection_sound,
    i16 x.dying_sound,
    i32 x.wwise_train_sound_id,
    i32 x.wwise_damage_sound_id,
    i32 x.wwise_selection_sound_id,
    i32 x.wwise_dying_sound_id,
    u8 x.old_attack_reaction,
    u8 x.convert_terrain,
    text x.name,
    i16 x.copy_id,
    i16 x.base_id,
    partFrom x.type 20 f32 x.speed,
    partFrom x.type 30 (DeadFish.layout v) x.dead_fish,
    partFrom x.type 40 (Bird.layout v) x.bird,
    partFrom x.type 50 (Type50.layout v) x.type_50,
    partOf x.type 60 (Projectile.layout v) x.projectile,
    partFrom x.type 70 (Creatable.layout v) x.creatable,
    partOf x.type 80 (Building.layout v) x.building] := rfl

theorem Splits.partFrom {P : β → Prop} {f : β → List Item} {t k : Int} (h : t ≠ 90 ∧ k ≤ t) : Splits P (fun y => Genie.partFrom t k f (some y)) f :=
  Splits.part h

theorem Splits.partOf {P : β → Prop} {f : β → List Item} {t k : Int} (h : t = k) : Splits P (fun y => Genie.partOf t k f (some y)) f :=
  Splits.part h

/-- Two lists have to have the same length. -/
def sameLen (a : List α) (b : List β) : List Item := requires (a.length = b.length) .assertionError
/-- The number of terrains of the first restriction. -/
def firstLen (l : List TerrainRestriction) : List Item :=
  if l = [] then [.idle 2] else [.count 2 true (match l with | [] => 0 | r :: _ => r.passable_buildable_dmg_multiplier.length)]

theorem sameLen_set (a : List α) (b : List β) (i : Nat) (y : β) : sameLen a (b.set i y) = sameLen a b := by simp [sameLen]

theorem DatFile.layout_eq (v : Version) (x : DatFile) : x.layoutAt v =
  List.flatten [
    sameLen x.float_ptr_terrain_tables x.terrain_pass_graphic_pointers,
    sameLen x.terrain_pass_graphic_pointers x.terrain_restrictions,
    [.fixedText 8 x.version],
    countI16 x.terrain_restrictions,
    firstLen x.terrain_restrictions,
    each i32 x.float_ptr_terrain_tables,
    each i32 x.terrain_pass_graphic_pointers,
    each (TerrainRestriction.layout v) x.terrain_restrictions,
    countI16 x.player_colours,
    each (PlayerColour.layout v) x.player_colours,
    countI16 x.sounds,
    each (Sound.layout v) x.sounds,
    countI16 x.graphics,
    pointers x.graphics,
    eachPresent (Graphic.layout v) x.graphics,
    TerrainBlock.layout v x.terrain_block,
    RandomMaps.layout v x.random_maps,
    countI32 x.effects,
    each (Effect.layout v) x.effects,
    countI32 x.unit_headers,
    each (UnitHeaders.layout v) x.unit_headers,
    countI16 x.civs,
    each (Civ.layout v) x.civs,
    countI16 x.techs,
    each (Tech.layout v) x.techs,
    i32 x.time_slice,
    i32 x.unit_kill_rate,
    i32 x.unit_kill_total,
    i32 x.unit_hit_point_rate,
    i32 x.unit_hit_point_total,
    i32 x.razing_kill_rate,
    i32 x.razing_kill_total,
    TechTree.layout v x.tech_tree] := rfl

theorem Splits.tailP {P : β → Prop} {f : β → List Item} {a : β → List Item} {a0 : List Item} {r : β → List (List Item)}
    (ha : ∀ y, P y → a y = a0) (h : Splits P (fun y => List.flatten (r y)) f) : Splits P (fun y => List.flatten (a y :: r y)) f :=
  Splits.congr (g' := fun y => List.flatten (a0 :: r y)) (Splits.tail h) fun y hy => by rw [ha y hy]

/-- What is shown for each slot. -/
structure Slot.Good (v : Version) {a b : Node} (s : Slot a b) (x : a.Obj) (m : b.Obj) : Prop where
  wf : b.WF v m
  self : s.set x m = x
  wf_set : ∀ y, b.WF v y → s.Keeps x y → a.WF v (s.set x y)
  get_set : ∀ y, s.Keeps x y → s.get (s.set x y) = some y
  splits : Splits (s.Keeps x) (fun y => a.layout v (s.set x y)) (b.layout v)

end Genie
