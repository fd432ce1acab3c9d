import Verif.Spec.ClassLayout
/-!
# The order in which the writer checks the items

It is the order of the format, except that the parts of a unit (speed, dead fish, ...) are written to byte strings before its
other items.
-/

namespace Genie

open Layout

/-- Items of a `Unit`: its parts first. -/
def Unit.checks (v : Version) (x : Unit) : List Item :=
  List.flatten [
    part (x.type ≠ 90 ∧ 20 ≤ x.type) f32 x.speed,
    part (x.type ≠ 90 ∧ 30 ≤ x.type) (DeadFish.layout v) x.dead_fish,
    part (x.type ≠ 90 ∧ 40 ≤ x.type) (Bird.layout v) x.bird,
    part (x.type ≠ 90 ∧ 50 ≤ x.type) (Type50.layout v) x.type_50,
    part (x.type = 60) (Projectile.layout v) x.projectile,
    part (x.type ≠ 90 ∧ 70 ≤ x.type) (Creatable.layout v) x.creatable,
    part (x.type = 80) (Building.layout v) x.building,
    block (if 88 ≤ v.num then "bhllhhhhhbhfbfffhhhhbbhbhbbhhhhffbbhbhfbbbbbfbllbbbbbbbbbhbbfffll" else
      "bhllhhhhhbhfbfffhhhhbbhbhbbhhhhffbbhbhfbbbbbfblllbbbbbbbbbhbbfffll") ([.int x.type, .int x.id, .int
      x.language_dll_name, .int x.language_dll_creation, .int x.class_] ++ x.standing_graphic.map Val.int ++ [.int
      x.dying_graphic, .int x.undead_graphic, .int x.undead_mode, .int x.hit_points, .float x.line_of_sight, .int
      x.garrison_capacity, .float x.collision_size_x, .float x.collision_size_y, .float x.collision_size_z, .int
      x.train_sound, .int x.damage_sound, .int x.dead_unit_id, .int x.blood_unit_id, .int x.sort_number, .int
      x.can_be_built_on, .int x.icon_id, .int x.hide_in_editor, .int x.old_portrait_pict, .int x.enabled, .int x.disabled] ++
      x.placement_side_terrain.map Val.int ++ x.placement_terrain.map Val.int ++ x.clearance_size.map Val.float ++ [.int
      x.hill_mode, .int x.fog_visibility, .int x.terrain_restriction, .int x.fly_mode, .int x.resource_capacity, .float
      x.resource_decay, .int x.blast_defense_level, .int x.combat_level, .int x.interaction_mode, .int x.minimap_mode, .int
      x.interface_kind, .float x.multiple_attribute_mode, .int x.minimap_color, .int x.language_dll_help, .int
      x.language_dll_hotkey_text] ++ (if 88 ≤ v.num then [] else [.int x.hot_key]) ++ [.int x.recyclable, .int
      x.enable_auto_gather, .int x.create_doppelganger_on_death, .int x.resource_gather_group, .int x.occlusion_mode, .int
      x.obstruction_type, .int x.obstruction_class, .int x.trait, .int x.civilization, .int x.nothing, .int
      x.selection_effect, .int x.editor_selection_colour, .float x.outline_size_x, .float x.outline_size_y, .float
      x.outline_size_z, .int x.scenario_triggers_1, .int x.scenario_triggers_2]),
    each (ResourceStorage.layout v) x.resource_storages,
    countU8 x.damage_graphics,
    each (DamageGraphic.layout v) x.damage_graphics,
    i16 x.selection_sound,
    i16 x.dying_sound,
    i32 x.wwise_train_sound_id,
    i32 x.wwise_damage_sound_id,
    i32 x.wwise_selection_sound_id,
    i32 x.wwise_dying_sound_id,
    u8 x.old_attack_reaction,
    u8 x.convert_terrain,
    text x.name,
    i16 x.copy_id,
    i16 x.base_id]

/-- Items of a `Civ`, in the order of the checks. -/
def Civ.checks (v : Version) (x : Civ) : List Item :=
  List.flatten [
    u8 x.player_type,
    text x.name,
    countI16 x.resources,
    i16 x.tech_tree_id,
    i16 x.team_bonus_id,
    each f32 x.resources,
    u8 x.icon_set,
    countI16 x.units,
    pointers x.units,
    eachPresent (Unit.checks v) x.units]

/-- Items of a file, in the order of the checks. -/
def DatFile.checksAt (v : Version) (x : DatFile) : List Item :=
  List.flatten [
    requires (x.float_ptr_terrain_tables.length = x.terrain_pass_graphic_pointers.length) .assertionError,
    requires (x.terrain_pass_graphic_pointers.length = x.terrain_restrictions.length) .assertionError,
    [.fixedText 8 x.version],
    countI16 x.terrain_restrictions,
    x.terrainItems,
    each i32 x.float_ptr_terrain_tables,
    each i32 x.terrain_pass_graphic_pointers,
    each (TerrainRestriction.layout v) x.terrain_restrictions,
    countI16 x.player_colours,
    each (PlayerColour.layout v) x.player_colours,
    countI16 x.sounds,
    each (Sound.layout v) x.sounds,
    countI16 x.graphics,
    pointers x.graphics,
    eachPresent (Graphic.layout v) x.graphics,
    TerrainBlock.layout v x.terrain_block,
    RandomMaps.layout v x.random_maps,
    countI32 x.effects,
    each (Effect.layout v) x.effects,
    countI32 x.unit_headers,
    each (UnitHeaders.layout v) x.unit_headers,
    countI16 x.civs,
    each (Civ.checks v) x.civs,
    countI16 x.techs,
    each (Tech.layout v) x.techs,
    i32 x.time_slice,
    i32 x.unit_kill_rate,
    i32 x.unit_kill_total,
    i32 x.unit_hit_point_rate,
    i32 x.unit_hit_point_total,
    i32 x.razing_kill_rate,
    i32 x.razing_kill_total,
    TechTree.layout v x.tech_tree]

/-- Items of a file, in the order of the checks: an unknown version string is noticed first. -/
def DatFile.checks (x : DatFile) : List Item :=
  match writableVersions.lookup x.version with
  | none => requires False .valueError
  | some v => x.checksAt v

/-- Items of a record of any class, in the order of the checks. -/
def RecordClass.checks : (c : RecordClass) → Version → c.Obj → List Item
  | .Unit => Unit.checks
  | .Civ => Civ.checks
  | c => c.layout

end Genie
