import Verif.Spec.EditElems
import Verif.Spec.RecordObjects
import Verif.Spec.Converts
import Verif.Spec.Programs
/-!
# The places and fields of a file, in terms of objects

The places and fields of `Spec/Edits.lean` are those that a Python program writes as `data.civs[1].units[4].type_50.attacks[0].amount`:
`Place.path` is the expression for the record, the `name` of a field that of its attribute.  (Generated by `tools/gen_edit_objects.py`.)
-/

namespace Genie
open Layout

/-- The object with this value. -/
def Node.object : (n : Node) → n.Obj → ObjTree
  | .file => DatFile.object false
  | .record c => c.object

/-- The end of the expression that leads to the record. -/
def Slot.path : Slot a b → ObjPath
  | .Effect_effect_commands i => [.attr (lit "effect_commands"), .item i]
  | .Sound_items i => [.attr (lit "items"), .item i]
  | .Graphic_deltas i => [.attr (lit "deltas"), .item i]
  | .Graphic_angle_sounds i => [.attr (lit "angle_sounds"), .item i]
  | .Terrain_frame_data i => [.attr (lit "frame_data"), .item i]
  | .TerrainBlock_tile_sizes i => [.attr (lit "tile_sizes"), .item i]
  | .TerrainBlock_terrains i => [.attr (lit "terrains"), .item i]
  | .MapInfo_map_lands i => [.attr (lit "map_lands"), .item i]
  | .MapInfo_map_terrains i => [.attr (lit "map_terrains"), .item i]
  | .MapInfo_map_units i => [.attr (lit "map_units"), .item i]
  | .MapInfo_map_elevations i => [.attr (lit "map_elevations"), .item i]
  | .RandomMaps_map_info_1 i => [.attr (lit "map_info_1"), .item i]
  | .RandomMaps_map_info_2 i => [.attr (lit "map_info_2"), .item i]
  | .Tech_resource_costs i => [.attr (lit "resource_costs"), .item i]
  | .Tech_research_locations i => [.attr (lit "research_locations"), .item i]
  | .TechTreeAge_common => [.attr (lit "common")]
  | .BuildingConnection_common => [.attr (lit "common")]
  | .UnitConnection_common => [.attr (lit "common")]
  | .ResearchConnection_common => [.attr (lit "common")]
  | .TechTree_tech_tree_ages i => [.attr (lit "tech_tree_ages"), .item i]
  | .TechTree_building_connections i => [.attr (lit "building_connections"), .item i]
  | .TechTree_unit_connections i => [.attr (lit "unit_connections"), .item i]
  | .TechTree_research_connections i => [.attr (lit "research_connections"), .item i]
  | .Bird_tasks i => [.attr (lit "tasks"), .item i]
  | .Type50_attacks i => [.attr (lit "attacks"), .item i]
  | .Type50_armours i => [.attr (lit "armours"), .item i]
  | .Creatable_resource_costs i => [.attr (lit "resource_costs"), .item i]
  | .Creatable_train_locations i => [.attr (lit "train_locations"), .item i]
  | .Building_annexes i => [.attr (lit "annexes"), .item i]
  | .Unit_resource_storages i => [.attr (lit "resource_storages"), .item i]
  | .Unit_damage_graphics i => [.attr (lit "damage_graphics"), .item i]
  | .Unit_dead_fish => [.attr (lit "dead_fish")]
  | .Unit_bird => [.attr (lit "bird")]
  | .Unit_type_50 => [.attr (lit "type_50")]
  | .Unit_projectile => [.attr (lit "projectile")]
  | .Unit_creatable => [.attr (lit "creatable")]
  | .Unit_building => [.attr (lit "building")]
  | .UnitHeaders_task_list i => [.attr (lit "task_list"), .item i]
  | .Civ_units i => [.attr (lit "units"), .item i]
  | .TerrainRestriction_terrain_pass_graphics _ i => [.attr (lit "terrain_pass_graphics"), .item i]
  | .DatFile_terrain_restrictions _ i => [.attr (lit "terrain_restrictions"), .item i]
  | .DatFile_player_colours i => [.attr (lit "player_colours"), .item i]
  | .DatFile_sounds i => [.attr (lit "sounds"), .item i]
  | .DatFile_graphics i => [.attr (lit "graphics"), .item i]
  | .DatFile_terrain_block => [.attr (lit "terrain_block")]
  | .DatFile_random_maps => [.attr (lit "random_maps")]
  | .DatFile_effects i => [.attr (lit "effects"), .item i]
  | .DatFile_unit_headers i => [.attr (lit "unit_headers"), .item i]
  | .DatFile_civs i => [.attr (lit "civs"), .item i]
  | .DatFile_techs i => [.attr (lit "techs"), .item i]
  | .DatFile_tech_tree => [.attr (lit "tech_tree")]

/-- The expression that leads to the record, such as `.civs[1].units[4].type_50`. -/
def Place.path : Place a b → ObjPath
  | .here => []
  | .step s p => s.path ++ p.path

/-- Terrain restrictions are filed under the length of their tables: the place asks for the length that the table of this file has. -/
def Slot.Right : Slot a b → a.Obj → Prop
  | .DatFile_terrain_restrictions n i, (x : Genie.DatFile) =>
    ∀ r, x.terrain_restrictions[i]? = some r → r.passable_buildable_dmg_multiplier.length = n
  | _, _ => True

/-- … on the way to the record. -/
def Place.Right : Place a b → a.Obj → Prop
  | .here, _ => True
  | .step s p, x => s.Right x ∧ ∀ m, s.get x = some m → p.Right m

/-- An attribute, with the objects it can hold. -/
structure Attr (α : Type) where
  name : String
  Val : Type
  get : α → Val
  set : α → Val → α
  object : Val → ObjTree

/-- An attribute that holds a list, with the objects of its elements. -/
structure ListAttr (α : Type) where
  name : String
  Elem : Type
  get : α → List Elem
  set : α → List Elem → α
  object : Elem → ObjTree

/-- All attributes of all classes, in the order of their definition. -/
def Node.attrs : (n : Node) → List (Attr n.Obj)
  | .record .EffectCommand => [
      ⟨"type", Int, fun (x : Genie.EffectCommand) => x.type, fun x y => { x with type := y }, .int⟩,
      ⟨"a", Int, fun (x : Genie.EffectCommand) => x.a, fun x y => { x with a := y }, .int⟩,
      ⟨"b", Int, fun (x : Genie.EffectCommand) => x.b, fun x y => { x with b := y }, .int⟩,
      ⟨"c", Int, fun (x : Genie.EffectCommand) => x.c, fun x y => { x with c := y }, .int⟩,
      ⟨"d", PyFloat, fun (x : Genie.EffectCommand) => x.d, fun x y => { x with d := y }, .float⟩]
  | .record .Effect => [
      ⟨"name", PyStr, fun (x : Genie.Effect) => x.name, fun x y => { x with name := y }, .str⟩,
      ⟨"effect_commands", (List Genie.EffectCommand), fun (x : Genie.Effect) => x.effect_commands, fun x y => { x with effect_commands := y }, fun l => .list (l.map EffectCommand.object)⟩]
  | .record .SoundItem => [
      ⟨"filename", PyStr, fun (x : Genie.SoundItem) => x.filename, fun x y => { x with filename := y }, .str⟩,
      ⟨"resource_id", Int, fun (x : Genie.SoundItem) => x.resource_id, fun x y => { x with resource_id := y }, .int⟩,
      ⟨"probability", Int, fun (x : Genie.SoundItem) => x.probability, fun x y => { x with probability := y }, .int⟩,
      ⟨"civilization", Int, fun (x : Genie.SoundItem) => x.civilization, fun x y => { x with civilization := y }, .int⟩,
      ⟨"icon_set", Int, fun (x : Genie.SoundItem) => x.icon_set, fun x y => { x with icon_set := y }, .int⟩]
  | .record .Sound => [
      ⟨"id", Int, fun (x : Genie.Sound) => x.id, fun x y => { x with id := y }, .int⟩,
      ⟨"play_delay", Int, fun (x : Genie.Sound) => x.play_delay, fun x y => { x with play_delay := y }, .int⟩,
      ⟨"cache_time", Int, fun (x : Genie.Sound) => x.cache_time, fun x y => { x with cache_time := y }, .int⟩,
      ⟨"total_probability", Int, fun (x : Genie.Sound) => x.total_probability, fun x y => { x with total_probability := y }, .int⟩,
      ⟨"items", (List Genie.SoundItem), fun (x : Genie.Sound) => x.items, fun x y => { x with items := y }, fun l => .list (l.map SoundItem.object)⟩]
  | .record .PlayerColour => [
      ⟨"id", Int, fun (x : Genie.PlayerColour) => x.id, fun x y => { x with id := y }, .int⟩,
      ⟨"player_color_base", Int, fun (x : Genie.PlayerColour) => x.player_color_base, fun x y => { x with player_color_base := y }, .int⟩,
      ⟨"unit_outline_color", Int, fun (x : Genie.PlayerColour) => x.unit_outline_color, fun x y => { x with unit_outline_color := y }, .int⟩,
      ⟨"unit_selection_color_1", Int, fun (x : Genie.PlayerColour) => x.unit_selection_color_1, fun x y => { x with unit_selection_color_1 := y }, .int⟩,
      ⟨"unit_selection_color_2", Int, fun (x : Genie.PlayerColour) => x.unit_selection_color_2, fun x y => { x with unit_selection_color_2 := y }, .int⟩,
      ⟨"minimap_color", Int, fun (x : Genie.PlayerColour) => x.minimap_color, fun x y => { x with minimap_color := y }, .int⟩,
      ⟨"minimap_color_2", Int, fun (x : Genie.PlayerColour) => x.minimap_color_2, fun x y => { x with minimap_color_2 := y }, .int⟩,
      ⟨"minimap_color_3", Int, fun (x : Genie.PlayerColour) => x.minimap_color_3, fun x y => { x with minimap_color_3 := y }, .int⟩,
      ⟨"statistics_text", Int, fun (x : Genie.PlayerColour) => x.statistics_text, fun x y => { x with statistics_text := y }, .int⟩]
  | .record .GraphicDelta => [
      ⟨"graphic_id", Int, fun (x : Genie.GraphicDelta) => x.graphic_id, fun x y => { x with graphic_id := y }, .int⟩,
      ⟨"padding_1", Int, fun (x : Genie.GraphicDelta) => x.padding_1, fun x y => { x with padding_1 := y }, .int⟩,
      ⟨"sprite_ptr", Int, fun (x : Genie.GraphicDelta) => x.sprite_ptr, fun x y => { x with sprite_ptr := y }, .int⟩,
      ⟨"offset_x", Int, fun (x : Genie.GraphicDelta) => x.offset_x, fun x y => { x with offset_x := y }, .int⟩,
      ⟨"offset_y", Int, fun (x : Genie.GraphicDelta) => x.offset_y, fun x y => { x with offset_y := y }, .int⟩,
      ⟨"display_angle", Int, fun (x : Genie.GraphicDelta) => x.display_angle, fun x y => { x with display_angle := y }, .int⟩,
      ⟨"padding_2", Int, fun (x : Genie.GraphicDelta) => x.padding_2, fun x y => { x with padding_2 := y }, .int⟩]
  | .record .GraphicAngleSound => [
      ⟨"frame_num", Int, fun (x : Genie.GraphicAngleSound) => x.frame_num, fun x y => { x with frame_num := y }, .int⟩,
      ⟨"sound_id", Int, fun (x : Genie.GraphicAngleSound) => x.sound_id, fun x y => { x with sound_id := y }, .int⟩,
      ⟨"wwise_sound_id", Int, fun (x : Genie.GraphicAngleSound) => x.wwise_sound_id, fun x y => { x with wwise_sound_id := y }, .int⟩,
      ⟨"frame_num_2", Int, fun (x : Genie.GraphicAngleSound) => x.frame_num_2, fun x y => { x with frame_num_2 := y }, .int⟩,
      ⟨"sound_id_2", Int, fun (x : Genie.GraphicAngleSound) => x.sound_id_2, fun x y => { x with sound_id_2 := y }, .int⟩,
      ⟨"wwise_sound_id_2", Int, fun (x : Genie.GraphicAngleSound) => x.wwise_sound_id_2, fun x y => { x with wwise_sound_id_2 := y }, .int⟩,
      ⟨"frame_num_3", Int, fun (x : Genie.GraphicAngleSound) => x.frame_num_3, fun x y => { x with frame_num_3 := y }, .int⟩,
      ⟨"sound_id_3", Int, fun (x : Genie.GraphicAngleSound) => x.sound_id_3, fun x y => { x with sound_id_3 := y }, .int⟩,
      ⟨"wwise_sound_id_3", Int, fun (x : Genie.GraphicAngleSound) => x.wwise_sound_id_3, fun x y => { x with wwise_sound_id_3 := y }, .int⟩]
  | .record .Graphic => [
      ⟨"name", PyStr, fun (x : Genie.Graphic) => x.name, fun x y => { x with name := y }, .str⟩,
      ⟨"file_name", PyStr, fun (x : Genie.Graphic) => x.file_name, fun x y => { x with file_name := y }, .str⟩,
      ⟨"particle_effect_name", PyStr, fun (x : Genie.Graphic) => x.particle_effect_name, fun x y => { x with particle_effect_name := y }, .str⟩,
      ⟨"slp", Int, fun (x : Genie.Graphic) => x.slp, fun x y => { x with slp := y }, .int⟩,
      ⟨"is_loaded", Int, fun (x : Genie.Graphic) => x.is_loaded, fun x y => { x with is_loaded := y }, .int⟩,
      ⟨"old_color_flag", Int, fun (x : Genie.Graphic) => x.old_color_flag, fun x y => { x with old_color_flag := y }, .int⟩,
      ⟨"layer", Int, fun (x : Genie.Graphic) => x.layer, fun x y => { x with layer := y }, .int⟩,
      ⟨"player_color", Int, fun (x : Genie.Graphic) => x.player_color, fun x y => { x with player_color := y }, .int⟩,
      ⟨"transparent_selection", Int, fun (x : Genie.Graphic) => x.transparent_selection, fun x y => { x with transparent_selection := y }, .int⟩,
      ⟨"coordinates", (List Int), fun (x : Genie.Graphic) => x.coordinates, fun x y => { x with coordinates := y }, fun l => .tuple (l.map .int)⟩,
      ⟨"sound_id", Int, fun (x : Genie.Graphic) => x.sound_id, fun x y => { x with sound_id := y }, .int⟩,
      ⟨"wwise_sound_id", Int, fun (x : Genie.Graphic) => x.wwise_sound_id, fun x y => { x with wwise_sound_id := y }, .int⟩,
      ⟨"angle_sounds_used", Int, fun (x : Genie.Graphic) => x.angle_sounds_used, fun x y => { x with angle_sounds_used := y }, .int⟩,
      ⟨"frame_count", Int, fun (x : Genie.Graphic) => x.frame_count, fun x y => { x with frame_count := y }, .int⟩,
      ⟨"angle_count", Int, fun (x : Genie.Graphic) => x.angle_count, fun x y => { x with angle_count := y }, .int⟩,
      ⟨"speed_multiplier", PyFloat, fun (x : Genie.Graphic) => x.speed_multiplier, fun x y => { x with speed_multiplier := y }, .float⟩,
      ⟨"frame_duration", PyFloat, fun (x : Genie.Graphic) => x.frame_duration, fun x y => { x with frame_duration := y }, .float⟩,
      ⟨"replay_delay", PyFloat, fun (x : Genie.Graphic) => x.replay_delay, fun x y => { x with replay_delay := y }, .float⟩,
      ⟨"sequence_type", Int, fun (x : Genie.Graphic) => x.sequence_type, fun x y => { x with sequence_type := y }, .int⟩,
      ⟨"id", Int, fun (x : Genie.Graphic) => x.id, fun x y => { x with id := y }, .int⟩,
      ⟨"mirroring_mode", Int, fun (x : Genie.Graphic) => x.mirroring_mode, fun x y => { x with mirroring_mode := y }, .int⟩,
      ⟨"editor_flag", Int, fun (x : Genie.Graphic) => x.editor_flag, fun x y => { x with editor_flag := y }, .int⟩,
      ⟨"deltas", (List Genie.GraphicDelta), fun (x : Genie.Graphic) => x.deltas, fun x y => { x with deltas := y }, fun l => .list (l.map GraphicDelta.object)⟩,
      ⟨"angle_sounds", (List Genie.GraphicAngleSound), fun (x : Genie.Graphic) => x.angle_sounds, fun x y => { x with angle_sounds := y }, fun l => .list (l.map GraphicAngleSound.object)⟩]
  | .record .TerrainPassGraphic => [
      ⟨"exit_tile_sprite_id", Int, fun (x : Genie.TerrainPassGraphic) => x.exit_tile_sprite_id, fun x y => { x with exit_tile_sprite_id := y }, .int⟩,
      ⟨"enter_tile_sprite_id", Int, fun (x : Genie.TerrainPassGraphic) => x.enter_tile_sprite_id, fun x y => { x with enter_tile_sprite_id := y }, .int⟩,
      ⟨"walk_tile_sprite_id", Int, fun (x : Genie.TerrainPassGraphic) => x.walk_tile_sprite_id, fun x y => { x with walk_tile_sprite_id := y }, .int⟩,
      ⟨"walk_sprite_rate", Int, fun (x : Genie.TerrainPassGraphic) => x.walk_sprite_rate, fun x y => { x with walk_sprite_rate := y }, .int⟩]
  | .record (.TerrainRestriction _) => [
      ⟨"passable_buildable_dmg_multiplier", (List PyFloat), fun (x : Genie.TerrainRestriction) => x.passable_buildable_dmg_multiplier, fun x y => { x with passable_buildable_dmg_multiplier := y }, fun l => .list (l.map .float)⟩,
      ⟨"terrain_pass_graphics", (List Genie.TerrainPassGraphic), fun (x : Genie.TerrainRestriction) => x.terrain_pass_graphics, fun x y => { x with terrain_pass_graphics := y }, fun l => .list (l.map TerrainPassGraphic.object)⟩]
  | .record .FrameData => [
      ⟨"frame_count", Int, fun (x : Genie.FrameData) => x.frame_count, fun x y => { x with frame_count := y }, .int⟩,
      ⟨"angle_count", Int, fun (x : Genie.FrameData) => x.angle_count, fun x y => { x with angle_count := y }, .int⟩,
      ⟨"shape_id", Int, fun (x : Genie.FrameData) => x.shape_id, fun x y => { x with shape_id := y }, .int⟩]
  | .record .Terrain => [
      ⟨"enabled", Int, fun (x : Genie.Terrain) => x.enabled, fun x y => { x with enabled := y }, .int⟩,
      ⟨"random", Int, fun (x : Genie.Terrain) => x.random, fun x y => { x with random := y }, .int⟩,
      ⟨"is_water", Int, fun (x : Genie.Terrain) => x.is_water, fun x y => { x with is_water := y }, .int⟩,
      ⟨"hide_in_editor", Int, fun (x : Genie.Terrain) => x.hide_in_editor, fun x y => { x with hide_in_editor := y }, .int⟩,
      ⟨"string_id", Int, fun (x : Genie.Terrain) => x.string_id, fun x y => { x with string_id := y }, .int⟩,
      ⟨"name", PyStr, fun (x : Genie.Terrain) => x.name, fun x y => { x with name := y }, .str⟩,
      ⟨"name_2", PyStr, fun (x : Genie.Terrain) => x.name_2, fun x y => { x with name_2 := y }, .str⟩,
      ⟨"slp", Int, fun (x : Genie.Terrain) => x.slp, fun x y => { x with slp := y }, .int⟩,
      ⟨"shape_ptr", Int, fun (x : Genie.Terrain) => x.shape_ptr, fun x y => { x with shape_ptr := y }, .int⟩,
      ⟨"sound_id", Int, fun (x : Genie.Terrain) => x.sound_id, fun x y => { x with sound_id := y }, .int⟩,
      ⟨"wwise_sound_id", Int, fun (x : Genie.Terrain) => x.wwise_sound_id, fun x y => { x with wwise_sound_id := y }, .int⟩,
      ⟨"wwise_sound_stop_id", Int, fun (x : Genie.Terrain) => x.wwise_sound_stop_id, fun x y => { x with wwise_sound_stop_id := y }, .int⟩,
      ⟨"blend_priority", Int, fun (x : Genie.Terrain) => x.blend_priority, fun x y => { x with blend_priority := y }, .int⟩,
      ⟨"blend_type", Int, fun (x : Genie.Terrain) => x.blend_type, fun x y => { x with blend_type := y }, .int⟩,
      ⟨"overlay_mask_name", PyStr, fun (x : Genie.Terrain) => x.overlay_mask_name, fun x y => { x with overlay_mask_name := y }, .str⟩,
      ⟨"colors", (List Int), fun (x : Genie.Terrain) => x.colors, fun x y => { x with colors := y }, fun l => .tuple (l.map .int)⟩,
      ⟨"cliff_colors", (List Int), fun (x : Genie.Terrain) => x.cliff_colors, fun x y => { x with cliff_colors := y }, fun l => .tuple (l.map .int)⟩,
      ⟨"passable_terrain", Int, fun (x : Genie.Terrain) => x.passable_terrain, fun x y => { x with passable_terrain := y }, .int⟩,
      ⟨"impassable_terrain", Int, fun (x : Genie.Terrain) => x.impassable_terrain, fun x y => { x with impassable_terrain := y }, .int⟩,
      ⟨"is_animated", Int, fun (x : Genie.Terrain) => x.is_animated, fun x y => { x with is_animated := y }, .int⟩,
      ⟨"animation_frames", Int, fun (x : Genie.Terrain) => x.animation_frames, fun x y => { x with animation_frames := y }, .int⟩,
      ⟨"pause_frames", Int, fun (x : Genie.Terrain) => x.pause_frames, fun x y => { x with pause_frames := y }, .int⟩,
      ⟨"interval", PyFloat, fun (x : Genie.Terrain) => x.interval, fun x y => { x with interval := y }, .float⟩,
      ⟨"pause_between_loops", PyFloat, fun (x : Genie.Terrain) => x.pause_between_loops, fun x y => { x with pause_between_loops := y }, .float⟩,
      ⟨"frame", Int, fun (x : Genie.Terrain) => x.frame, fun x y => { x with frame := y }, .int⟩,
      ⟨"draw_frame", Int, fun (x : Genie.Terrain) => x.draw_frame, fun x y => { x with draw_frame := y }, .int⟩,
      ⟨"animate_last", PyFloat, fun (x : Genie.Terrain) => x.animate_last, fun x y => { x with animate_last := y }, .float⟩,
      ⟨"frame_changed", Int, fun (x : Genie.Terrain) => x.frame_changed, fun x y => { x with frame_changed := y }, .int⟩,
      ⟨"drawn", Int, fun (x : Genie.Terrain) => x.drawn, fun x y => { x with drawn := y }, .int⟩,
      ⟨"frame_data", (List Genie.FrameData), fun (x : Genie.Terrain) => x.frame_data, fun x y => { x with frame_data := y }, fun l => .list (l.map FrameData.object)⟩,
      ⟨"terrain_to_draw", Int, fun (x : Genie.Terrain) => x.terrain_to_draw, fun x y => { x with terrain_to_draw := y }, .int⟩,
      ⟨"terrain_dimensions", (List Int), fun (x : Genie.Terrain) => x.terrain_dimensions, fun x y => { x with terrain_dimensions := y }, fun l => .tuple (l.map .int)⟩,
      ⟨"terrain_unit_masked_density", (List Int), fun (x : Genie.Terrain) => x.terrain_unit_masked_density, fun x y => { x with terrain_unit_masked_density := y }, fun l => .list (l.map .int)⟩,
      ⟨"terrain_unit_id", (List Int), fun (x : Genie.Terrain) => x.terrain_unit_id, fun x y => { x with terrain_unit_id := y }, fun l => .list (l.map .int)⟩,
      ⟨"terrain_unit_density", (List Int), fun (x : Genie.Terrain) => x.terrain_unit_density, fun x y => { x with terrain_unit_density := y }, fun l => .list (l.map .int)⟩,
      ⟨"terrain_unit_centering", (List Int), fun (x : Genie.Terrain) => x.terrain_unit_centering, fun x y => { x with terrain_unit_centering := y }, fun l => .list (l.map .int)⟩,
      ⟨"number_of_terrain_units_used", Int, fun (x : Genie.Terrain) => x.number_of_terrain_units_used, fun x y => { x with number_of_terrain_units_used := y }, .int⟩,
      ⟨"phantom", Int, fun (x : Genie.Terrain) => x.phantom, fun x y => { x with phantom := y }, .int⟩]
  | .record .TileSize => [
      ⟨"width", Int, fun (x : Genie.TileSize) => x.width, fun x y => { x with width := y }, .int⟩,
      ⟨"height", Int, fun (x : Genie.TileSize) => x.height, fun x y => { x with height := y }, .int⟩,
      ⟨"delta_y", Int, fun (x : Genie.TileSize) => x.delta_y, fun x y => { x with delta_y := y }, .int⟩]
  | .record .TerrainBlock => [
      ⟨"virtual_function_ptr", Int, fun (x : Genie.TerrainBlock) => x.virtual_function_ptr, fun x y => { x with virtual_function_ptr := y }, .int⟩,
      ⟨"map_pointer", Int, fun (x : Genie.TerrainBlock) => x.map_pointer, fun x y => { x with map_pointer := y }, .int⟩,
      ⟨"map_width", Int, fun (x : Genie.TerrainBlock) => x.map_width, fun x y => { x with map_width := y }, .int⟩,
      ⟨"map_height", Int, fun (x : Genie.TerrainBlock) => x.map_height, fun x y => { x with map_height := y }, .int⟩,
      ⟨"world_width", Int, fun (x : Genie.TerrainBlock) => x.world_width, fun x y => { x with world_width := y }, .int⟩,
      ⟨"world_height", Int, fun (x : Genie.TerrainBlock) => x.world_height, fun x y => { x with world_height := y }, .int⟩,
      ⟨"tile_sizes", (List Genie.TileSize), fun (x : Genie.TerrainBlock) => x.tile_sizes, fun x y => { x with tile_sizes := y }, fun l => .list (l.map TileSize.object)⟩,
      ⟨"padding_ts", Int, fun (x : Genie.TerrainBlock) => x.padding_ts, fun x y => { x with padding_ts := y }, .int⟩,
      ⟨"terrains", (List Genie.Terrain), fun (x : Genie.TerrainBlock) => x.terrains, fun x y => { x with terrains := y }, fun l => .list (l.map Terrain.object)⟩,
      ⟨"map_min_x", PyFloat, fun (x : Genie.TerrainBlock) => x.map_min_x, fun x y => { x with map_min_x := y }, .float⟩,
      ⟨"map_min_y", PyFloat, fun (x : Genie.TerrainBlock) => x.map_min_y, fun x y => { x with map_min_y := y }, .float⟩,
      ⟨"map_max_x", PyFloat, fun (x : Genie.TerrainBlock) => x.map_max_x, fun x y => { x with map_max_x := y }, .float⟩,
      ⟨"map_max_y", PyFloat, fun (x : Genie.TerrainBlock) => x.map_max_y, fun x y => { x with map_max_y := y }, .float⟩,
      ⟨"map_max_x_plus_1", PyFloat, fun (x : Genie.TerrainBlock) => x.map_max_x_plus_1, fun x y => { x with map_max_x_plus_1 := y }, .float⟩,
      ⟨"map_max_y_plus_1", PyFloat, fun (x : Genie.TerrainBlock) => x.map_max_y_plus_1, fun x y => { x with map_max_y_plus_1 := y }, .float⟩,
      ⟨"terrains_used_2", Int, fun (x : Genie.TerrainBlock) => x.terrains_used_2, fun x y => { x with terrains_used_2 := y }, .int⟩,
      ⟨"borders_used", Int, fun (x : Genie.TerrainBlock) => x.borders_used, fun x y => { x with borders_used := y }, .int⟩,
      ⟨"max_terrain", Int, fun (x : Genie.TerrainBlock) => x.max_terrain, fun x y => { x with max_terrain := y }, .int⟩,
      ⟨"tile_width", Int, fun (x : Genie.TerrainBlock) => x.tile_width, fun x y => { x with tile_width := y }, .int⟩,
      ⟨"tile_height", Int, fun (x : Genie.TerrainBlock) => x.tile_height, fun x y => { x with tile_height := y }, .int⟩,
      ⟨"tile_half_height", Int, fun (x : Genie.TerrainBlock) => x.tile_half_height, fun x y => { x with tile_half_height := y }, .int⟩,
      ⟨"tile_half_width", Int, fun (x : Genie.TerrainBlock) => x.tile_half_width, fun x y => { x with tile_half_width := y }, .int⟩,
      ⟨"elev_height", Int, fun (x : Genie.TerrainBlock) => x.elev_height, fun x y => { x with elev_height := y }, .int⟩,
      ⟨"cur_row", Int, fun (x : Genie.TerrainBlock) => x.cur_row, fun x y => { x with cur_row := y }, .int⟩,
      ⟨"cur_col", Int, fun (x : Genie.TerrainBlock) => x.cur_col, fun x y => { x with cur_col := y }, .int⟩,
      ⟨"block_beg_row", Int, fun (x : Genie.TerrainBlock) => x.block_beg_row, fun x y => { x with block_beg_row := y }, .int⟩,
      ⟨"block_end_row", Int, fun (x : Genie.TerrainBlock) => x.block_end_row, fun x y => { x with block_end_row := y }, .int⟩,
      ⟨"block_beg_col", Int, fun (x : Genie.TerrainBlock) => x.block_beg_col, fun x y => { x with block_beg_col := y }, .int⟩,
      ⟨"block_end_col", Int, fun (x : Genie.TerrainBlock) => x.block_end_col, fun x y => { x with block_end_col := y }, .int⟩,
      ⟨"search_map_ptr", Int, fun (x : Genie.TerrainBlock) => x.search_map_ptr, fun x y => { x with search_map_ptr := y }, .int⟩,
      ⟨"search_map_rows_ptr", Int, fun (x : Genie.TerrainBlock) => x.search_map_rows_ptr, fun x y => { x with search_map_rows_ptr := y }, .int⟩,
      ⟨"any_frame_change", Int, fun (x : Genie.TerrainBlock) => x.any_frame_change, fun x y => { x with any_frame_change := y }, .int⟩,
      ⟨"map_visible_flag", Int, fun (x : Genie.TerrainBlock) => x.map_visible_flag, fun x y => { x with map_visible_flag := y }, .int⟩,
      ⟨"fog_flag", Int, fun (x : Genie.TerrainBlock) => x.fog_flag, fun x y => { x with fog_flag := y }, .int⟩]
  | .record .MapUnit => [
      ⟨"unit", Int, fun (x : Genie.MapUnit) => x.unit, fun x y => { x with unit := y }, .int⟩,
      ⟨"host_terrain", Int, fun (x : Genie.MapUnit) => x.host_terrain, fun x y => { x with host_terrain := y }, .int⟩,
      ⟨"group_placing", Int, fun (x : Genie.MapUnit) => x.group_placing, fun x y => { x with group_placing := y }, .int⟩,
      ⟨"scale_flag", Int, fun (x : Genie.MapUnit) => x.scale_flag, fun x y => { x with scale_flag := y }, .int⟩,
      ⟨"padding_1", Int, fun (x : Genie.MapUnit) => x.padding_1, fun x y => { x with padding_1 := y }, .int⟩,
      ⟨"objects_per_group", Int, fun (x : Genie.MapUnit) => x.objects_per_group, fun x y => { x with objects_per_group := y }, .int⟩,
      ⟨"fluctuation", Int, fun (x : Genie.MapUnit) => x.fluctuation, fun x y => { x with fluctuation := y }, .int⟩,
      ⟨"groups_per_player", Int, fun (x : Genie.MapUnit) => x.groups_per_player, fun x y => { x with groups_per_player := y }, .int⟩,
      ⟨"group_arena", Int, fun (x : Genie.MapUnit) => x.group_arena, fun x y => { x with group_arena := y }, .int⟩,
      ⟨"player_id", Int, fun (x : Genie.MapUnit) => x.player_id, fun x y => { x with player_id := y }, .int⟩,
      ⟨"set_place_for_all_players", Int, fun (x : Genie.MapUnit) => x.set_place_for_all_players, fun x y => { x with set_place_for_all_players := y }, .int⟩,
      ⟨"min_distance_to_players", Int, fun (x : Genie.MapUnit) => x.min_distance_to_players, fun x y => { x with min_distance_to_players := y }, .int⟩,
      ⟨"max_distance_to_players", Int, fun (x : Genie.MapUnit) => x.max_distance_to_players, fun x y => { x with max_distance_to_players := y }, .int⟩]
  | .record .MapTerrain => [
      ⟨"proportion", Int, fun (x : Genie.MapTerrain) => x.proportion, fun x y => { x with proportion := y }, .int⟩,
      ⟨"terrain", Int, fun (x : Genie.MapTerrain) => x.terrain, fun x y => { x with terrain := y }, .int⟩,
      ⟨"clump_count", Int, fun (x : Genie.MapTerrain) => x.clump_count, fun x y => { x with clump_count := y }, .int⟩,
      ⟨"edge_spacing", Int, fun (x : Genie.MapTerrain) => x.edge_spacing, fun x y => { x with edge_spacing := y }, .int⟩,
      ⟨"placement_terrain", Int, fun (x : Genie.MapTerrain) => x.placement_terrain, fun x y => { x with placement_terrain := y }, .int⟩,
      ⟨"clumpiness", Int, fun (x : Genie.MapTerrain) => x.clumpiness, fun x y => { x with clumpiness := y }, .int⟩]
  | .record .MapLand => [
      ⟨"land_id", Int, fun (x : Genie.MapLand) => x.land_id, fun x y => { x with land_id := y }, .int⟩,
      ⟨"terrain", Int, fun (x : Genie.MapLand) => x.terrain, fun x y => { x with terrain := y }, .int⟩,
      ⟨"land_spacing", Int, fun (x : Genie.MapLand) => x.land_spacing, fun x y => { x with land_spacing := y }, .int⟩,
      ⟨"base_size", Int, fun (x : Genie.MapLand) => x.base_size, fun x y => { x with base_size := y }, .int⟩,
      ⟨"zone", Int, fun (x : Genie.MapLand) => x.zone, fun x y => { x with zone := y }, .int⟩,
      ⟨"placement_type", Int, fun (x : Genie.MapLand) => x.placement_type, fun x y => { x with placement_type := y }, .int⟩,
      ⟨"padding_1", Int, fun (x : Genie.MapLand) => x.padding_1, fun x y => { x with padding_1 := y }, .int⟩,
      ⟨"base_x", Int, fun (x : Genie.MapLand) => x.base_x, fun x y => { x with base_x := y }, .int⟩,
      ⟨"base_y", Int, fun (x : Genie.MapLand) => x.base_y, fun x y => { x with base_y := y }, .int⟩,
      ⟨"land_proportion", Int, fun (x : Genie.MapLand) => x.land_proportion, fun x y => { x with land_proportion := y }, .int⟩,
      ⟨"by_player_flag", Int, fun (x : Genie.MapLand) => x.by_player_flag, fun x y => { x with by_player_flag := y }, .int⟩,
      ⟨"padding_2", Int, fun (x : Genie.MapLand) => x.padding_2, fun x y => { x with padding_2 := y }, .int⟩,
      ⟨"start_area_radius", Int, fun (x : Genie.MapLand) => x.start_area_radius, fun x y => { x with start_area_radius := y }, .int⟩,
      ⟨"terrain_edge_fade", Int, fun (x : Genie.MapLand) => x.terrain_edge_fade, fun x y => { x with terrain_edge_fade := y }, .int⟩,
      ⟨"clumpiness", Int, fun (x : Genie.MapLand) => x.clumpiness, fun x y => { x with clumpiness := y }, .int⟩]
  | .record .MapElevation => [
      ⟨"proportion", Int, fun (x : Genie.MapElevation) => x.proportion, fun x y => { x with proportion := y }, .int⟩,
      ⟨"terrain", Int, fun (x : Genie.MapElevation) => x.terrain, fun x y => { x with terrain := y }, .int⟩,
      ⟨"clump_count", Int, fun (x : Genie.MapElevation) => x.clump_count, fun x y => { x with clump_count := y }, .int⟩,
      ⟨"base_terrain", Int, fun (x : Genie.MapElevation) => x.base_terrain, fun x y => { x with base_terrain := y }, .int⟩,
      ⟨"base_elevation", Int, fun (x : Genie.MapElevation) => x.base_elevation, fun x y => { x with base_elevation := y }, .int⟩,
      ⟨"tile_spacing", Int, fun (x : Genie.MapElevation) => x.tile_spacing, fun x y => { x with tile_spacing := y }, .int⟩]
  | .record .MapInfo => [
      ⟨"map_id", Int, fun (x : Genie.MapInfo) => x.map_id, fun x y => { x with map_id := y }, .int⟩,
      ⟨"border_south_west", Int, fun (x : Genie.MapInfo) => x.border_south_west, fun x y => { x with border_south_west := y }, .int⟩,
      ⟨"border_north_west", Int, fun (x : Genie.MapInfo) => x.border_north_west, fun x y => { x with border_north_west := y }, .int⟩,
      ⟨"border_north_east", Int, fun (x : Genie.MapInfo) => x.border_north_east, fun x y => { x with border_north_east := y }, .int⟩,
      ⟨"border_south_east", Int, fun (x : Genie.MapInfo) => x.border_south_east, fun x y => { x with border_south_east := y }, .int⟩,
      ⟨"border_usage", Int, fun (x : Genie.MapInfo) => x.border_usage, fun x y => { x with border_usage := y }, .int⟩,
      ⟨"water_shape", Int, fun (x : Genie.MapInfo) => x.water_shape, fun x y => { x with water_shape := y }, .int⟩,
      ⟨"base_terrain", Int, fun (x : Genie.MapInfo) => x.base_terrain, fun x y => { x with base_terrain := y }, .int⟩,
      ⟨"land_coverage", Int, fun (x : Genie.MapInfo) => x.land_coverage, fun x y => { x with land_coverage := y }, .int⟩,
      ⟨"unused_id", Int, fun (x : Genie.MapInfo) => x.unused_id, fun x y => { x with unused_id := y }, .int⟩,
      ⟨"map_lands_size", Int, fun (x : Genie.MapInfo) => x.map_lands_size, fun x y => { x with map_lands_size := y }, .int⟩,
      ⟨"map_lands_ptr", Int, fun (x : Genie.MapInfo) => x.map_lands_ptr, fun x y => { x with map_lands_ptr := y }, .int⟩,
      ⟨"map_lands", (List Genie.MapLand), fun (x : Genie.MapInfo) => x.map_lands, fun x y => { x with map_lands := y }, fun l => .list (l.map MapLand.object)⟩,
      ⟨"map_terrains_size", Int, fun (x : Genie.MapInfo) => x.map_terrains_size, fun x y => { x with map_terrains_size := y }, .int⟩,
      ⟨"map_terrains_ptr", Int, fun (x : Genie.MapInfo) => x.map_terrains_ptr, fun x y => { x with map_terrains_ptr := y }, .int⟩,
      ⟨"map_terrains", (List Genie.MapTerrain), fun (x : Genie.MapInfo) => x.map_terrains, fun x y => { x with map_terrains := y }, fun l => .list (l.map MapTerrain.object)⟩,
      ⟨"map_units_size", Int, fun (x : Genie.MapInfo) => x.map_units_size, fun x y => { x with map_units_size := y }, .int⟩,
      ⟨"map_units_ptr", Int, fun (x : Genie.MapInfo) => x.map_units_ptr, fun x y => { x with map_units_ptr := y }, .int⟩,
      ⟨"map_units", (List Genie.MapUnit), fun (x : Genie.MapInfo) => x.map_units, fun x y => { x with map_units := y }, fun l => .list (l.map MapUnit.object)⟩,
      ⟨"map_elevations_size", Int, fun (x : Genie.MapInfo) => x.map_elevations_size, fun x y => { x with map_elevations_size := y }, .int⟩,
      ⟨"map_elevations_ptr", Int, fun (x : Genie.MapInfo) => x.map_elevations_ptr, fun x y => { x with map_elevations_ptr := y }, .int⟩,
      ⟨"map_elevations", (List Genie.MapElevation), fun (x : Genie.MapInfo) => x.map_elevations, fun x y => { x with map_elevations := y }, fun l => .list (l.map MapElevation.object)⟩]
  | .record .RandomMaps => [
      ⟨"random_maps_ptr", Int, fun (x : Genie.RandomMaps) => x.random_maps_ptr, fun x y => { x with random_maps_ptr := y }, .int⟩,
      ⟨"map_info_1", (List Genie.MapInfo), fun (x : Genie.RandomMaps) => x.map_info_1, fun x y => { x with map_info_1 := y }, fun l => .list (l.map MapInfo.object)⟩,
      ⟨"map_info_2", (List Genie.MapInfo), fun (x : Genie.RandomMaps) => x.map_info_2, fun x y => { x with map_info_2 := y }, fun l => .list (l.map MapInfo.object)⟩]
  | .record .ResearchResourceCost => [
      ⟨"type", Int, fun (x : Genie.ResearchResourceCost) => x.type, fun x y => { x with type := y }, .int⟩,
      ⟨"amount", Int, fun (x : Genie.ResearchResourceCost) => x.amount, fun x y => { x with amount := y }, .int⟩,
      ⟨"flag", Int, fun (x : Genie.ResearchResourceCost) => x.flag, fun x y => { x with flag := y }, .int⟩]
  | .record .ResearchLocation => [
      ⟨"location_id", Int, fun (x : Genie.ResearchLocation) => x.location_id, fun x y => { x with location_id := y }, .int⟩,
      ⟨"research_time", Int, fun (x : Genie.ResearchLocation) => x.research_time, fun x y => { x with research_time := y }, .int⟩,
      ⟨"button_id", Int, fun (x : Genie.ResearchLocation) => x.button_id, fun x y => { x with button_id := y }, .int⟩,
      ⟨"hot_key_id", Int, fun (x : Genie.ResearchLocation) => x.hot_key_id, fun x y => { x with hot_key_id := y }, .int⟩]
  | .record .Tech => [
      ⟨"required_techs", (List Int), fun (x : Genie.Tech) => x.required_techs, fun x y => { x with required_techs := y }, fun l => .tuple (l.map .int)⟩,
      ⟨"resource_costs", (List Genie.ResearchResourceCost), fun (x : Genie.Tech) => x.resource_costs, fun x y => { x with resource_costs := y }, fun l => .tuple (l.map ResearchResourceCost.object)⟩,
      ⟨"required_tech_count", Int, fun (x : Genie.Tech) => x.required_tech_count, fun x y => { x with required_tech_count := y }, .int⟩,
      ⟨"civ", Int, fun (x : Genie.Tech) => x.civ, fun x y => { x with civ := y }, .int⟩,
      ⟨"full_tech_mode", Int, fun (x : Genie.Tech) => x.full_tech_mode, fun x y => { x with full_tech_mode := y }, .int⟩,
      ⟨"language_dll_name", Int, fun (x : Genie.Tech) => x.language_dll_name, fun x y => { x with language_dll_name := y }, .int⟩,
      ⟨"language_dll_description", Int, fun (x : Genie.Tech) => x.language_dll_description, fun x y => { x with language_dll_description := y }, .int⟩,
      ⟨"effect_id", Int, fun (x : Genie.Tech) => x.effect_id, fun x y => { x with effect_id := y }, .int⟩,
      ⟨"type", Int, fun (x : Genie.Tech) => x.type, fun x y => { x with type := y }, .int⟩,
      ⟨"icon_id", Int, fun (x : Genie.Tech) => x.icon_id, fun x y => { x with icon_id := y }, .int⟩,
      ⟨"language_dll_help", Int, fun (x : Genie.Tech) => x.language_dll_help, fun x y => { x with language_dll_help := y }, .int⟩,
      ⟨"language_dll_tech_tree", Int, fun (x : Genie.Tech) => x.language_dll_tech_tree, fun x y => { x with language_dll_tech_tree := y }, .int⟩,
      ⟨"name", PyStr, fun (x : Genie.Tech) => x.name, fun x y => { x with name := y }, .str⟩,
      ⟨"repeatable", Int, fun (x : Genie.Tech) => x.repeatable, fun x y => { x with repeatable := y }, .int⟩,
      ⟨"research_locations", (List Genie.ResearchLocation), fun (x : Genie.Tech) => x.research_locations, fun x y => { x with research_locations := y }, fun l => .list (l.map ResearchLocation.object)⟩]
  | .record .Common => [
      ⟨"slots_used", Int, fun (x : Genie.Common) => x.slots_used, fun x y => { x with slots_used := y }, .int⟩,
      ⟨"unit_research", (List Int), fun (x : Genie.Common) => x.unit_research, fun x y => { x with unit_research := y }, fun l => .tuple (l.map .int)⟩,
      ⟨"mode", (List Int), fun (x : Genie.Common) => x.mode, fun x y => { x with mode := y }, fun l => .tuple (l.map .int)⟩]
  | .record .TechTreeAge => [
      ⟨"id", Int, fun (x : Genie.TechTreeAge) => x.id, fun x y => { x with id := y }, .int⟩,
      ⟨"status", Int, fun (x : Genie.TechTreeAge) => x.status, fun x y => { x with status := y }, .int⟩,
      ⟨"buildings", (List Int), fun (x : Genie.TechTreeAge) => x.buildings, fun x y => { x with buildings := y }, fun l => .list (l.map .int)⟩,
      ⟨"units", (List Int), fun (x : Genie.TechTreeAge) => x.units, fun x y => { x with units := y }, fun l => .list (l.map .int)⟩,
      ⟨"techs", (List Int), fun (x : Genie.TechTreeAge) => x.techs, fun x y => { x with techs := y }, fun l => .list (l.map .int)⟩,
      ⟨"common", Genie.Common, fun (x : Genie.TechTreeAge) => x.common, fun x y => { x with common := y }, Common.object⟩,
      ⟨"num_building_levels", Int, fun (x : Genie.TechTreeAge) => x.num_building_levels, fun x y => { x with num_building_levels := y }, .int⟩,
      ⟨"buildings_per_zone", (List Int), fun (x : Genie.TechTreeAge) => x.buildings_per_zone, fun x y => { x with buildings_per_zone := y }, fun l => .tuple (l.map .int)⟩,
      ⟨"group_length_per_zone", (List Int), fun (x : Genie.TechTreeAge) => x.group_length_per_zone, fun x y => { x with group_length_per_zone := y }, fun l => .tuple (l.map .int)⟩,
      ⟨"max_age_length", Int, fun (x : Genie.TechTreeAge) => x.max_age_length, fun x y => { x with max_age_length := y }, .int⟩,
      ⟨"line_mode", Int, fun (x : Genie.TechTreeAge) => x.line_mode, fun x y => { x with line_mode := y }, .int⟩]
  | .record .BuildingConnection => [
      ⟨"id", Int, fun (x : Genie.BuildingConnection) => x.id, fun x y => { x with id := y }, .int⟩,
      ⟨"status", Int, fun (x : Genie.BuildingConnection) => x.status, fun x y => { x with status := y }, .int⟩,
      ⟨"buildings", (List Int), fun (x : Genie.BuildingConnection) => x.buildings, fun x y => { x with buildings := y }, fun l => .list (l.map .int)⟩,
      ⟨"units", (List Int), fun (x : Genie.BuildingConnection) => x.units, fun x y => { x with units := y }, fun l => .list (l.map .int)⟩,
      ⟨"techs", (List Int), fun (x : Genie.BuildingConnection) => x.techs, fun x y => { x with techs := y }, fun l => .list (l.map .int)⟩,
      ⟨"common", Genie.Common, fun (x : Genie.BuildingConnection) => x.common, fun x y => { x with common := y }, Common.object⟩,
      ⟨"location_in_age", Int, fun (x : Genie.BuildingConnection) => x.location_in_age, fun x y => { x with location_in_age := y }, .int⟩,
      ⟨"units_techs_total", (List Int), fun (x : Genie.BuildingConnection) => x.units_techs_total, fun x y => { x with units_techs_total := y }, fun l => .tuple (l.map .int)⟩,
      ⟨"units_techs_first", (List Int), fun (x : Genie.BuildingConnection) => x.units_techs_first, fun x y => { x with units_techs_first := y }, fun l => .tuple (l.map .int)⟩,
      ⟨"line_mode", Int, fun (x : Genie.BuildingConnection) => x.line_mode, fun x y => { x with line_mode := y }, .int⟩,
      ⟨"enabling_research", Int, fun (x : Genie.BuildingConnection) => x.enabling_research, fun x y => { x with enabling_research := y }, .int⟩]
  | .record .UnitConnection => [
      ⟨"id", Int, fun (x : Genie.UnitConnection) => x.id, fun x y => { x with id := y }, .int⟩,
      ⟨"status", Int, fun (x : Genie.UnitConnection) => x.status, fun x y => { x with status := y }, .int⟩,
      ⟨"upper_building", Int, fun (x : Genie.UnitConnection) => x.upper_building, fun x y => { x with upper_building := y }, .int⟩,
      ⟨"common", Genie.Common, fun (x : Genie.UnitConnection) => x.common, fun x y => { x with common := y }, Common.object⟩,
      ⟨"vertical_line", Int, fun (x : Genie.UnitConnection) => x.vertical_line, fun x y => { x with vertical_line := y }, .int⟩,
      ⟨"units", (List Int), fun (x : Genie.UnitConnection) => x.units, fun x y => { x with units := y }, fun l => .list (l.map .int)⟩,
      ⟨"location_in_age", Int, fun (x : Genie.UnitConnection) => x.location_in_age, fun x y => { x with location_in_age := y }, .int⟩,
      ⟨"required_research", Int, fun (x : Genie.UnitConnection) => x.required_research, fun x y => { x with required_research := y }, .int⟩,
      ⟨"line_mode", Int, fun (x : Genie.UnitConnection) => x.line_mode, fun x y => { x with line_mode := y }, .int⟩,
      ⟨"enabling_research", Int, fun (x : Genie.UnitConnection) => x.enabling_research, fun x y => { x with enabling_research := y }, .int⟩]
  | .record .ResearchConnection => [
      ⟨"id", Int, fun (x : Genie.ResearchConnection) => x.id, fun x y => { x with id := y }, .int⟩,
      ⟨"status", Int, fun (x : Genie.ResearchConnection) => x.status, fun x y => { x with status := y }, .int⟩,
      ⟨"upper_building", Int, fun (x : Genie.ResearchConnection) => x.upper_building, fun x y => { x with upper_building := y }, .int⟩,
      ⟨"buildings", (List Int), fun (x : Genie.ResearchConnection) => x.buildings, fun x y => { x with buildings := y }, fun l => .list (l.map .int)⟩,
      ⟨"units", (List Int), fun (x : Genie.ResearchConnection) => x.units, fun x y => { x with units := y }, fun l => .list (l.map .int)⟩,
      ⟨"techs", (List Int), fun (x : Genie.ResearchConnection) => x.techs, fun x y => { x with techs := y }, fun l => .list (l.map .int)⟩,
      ⟨"common", Genie.Common, fun (x : Genie.ResearchConnection) => x.common, fun x y => { x with common := y }, Common.object⟩,
      ⟨"vertical_line", Int, fun (x : Genie.ResearchConnection) => x.vertical_line, fun x y => { x with vertical_line := y }, .int⟩,
      ⟨"location_in_age", Int, fun (x : Genie.ResearchConnection) => x.location_in_age, fun x y => { x with location_in_age := y }, .int⟩,
      ⟨"line_mode", Int, fun (x : Genie.ResearchConnection) => x.line_mode, fun x y => { x with line_mode := y }, .int⟩]
  | .record .TechTree => [
      ⟨"total_unit_tech_groups", Int, fun (x : Genie.TechTree) => x.total_unit_tech_groups, fun x y => { x with total_unit_tech_groups := y }, .int⟩,
      ⟨"tech_tree_ages", (List Genie.TechTreeAge), fun (x : Genie.TechTree) => x.tech_tree_ages, fun x y => { x with tech_tree_ages := y }, fun l => .list (l.map TechTreeAge.object)⟩,
      ⟨"building_connections", (List Genie.BuildingConnection), fun (x : Genie.TechTree) => x.building_connections, fun x y => { x with building_connections := y }, fun l => .list (l.map BuildingConnection.object)⟩,
      ⟨"unit_connections", (List Genie.UnitConnection), fun (x : Genie.TechTree) => x.unit_connections, fun x y => { x with unit_connections := y }, fun l => .list (l.map UnitConnection.object)⟩,
      ⟨"research_connections", (List Genie.ResearchConnection), fun (x : Genie.TechTree) => x.research_connections, fun x y => { x with research_connections := y }, fun l => .list (l.map ResearchConnection.object)⟩]
  | .record .Task => [
      ⟨"task_type", Int, fun (x : Genie.Task) => x.task_type, fun x y => { x with task_type := y }, .int⟩,
      ⟨"id", Int, fun (x : Genie.Task) => x.id, fun x y => { x with id := y }, .int⟩,
      ⟨"is_default", Int, fun (x : Genie.Task) => x.is_default, fun x y => { x with is_default := y }, .int⟩,
      ⟨"action_type", Int, fun (x : Genie.Task) => x.action_type, fun x y => { x with action_type := y }, .int⟩,
      ⟨"class_id", Int, fun (x : Genie.Task) => x.class_id, fun x y => { x with class_id := y }, .int⟩,
      ⟨"unit_id", Int, fun (x : Genie.Task) => x.unit_id, fun x y => { x with unit_id := y }, .int⟩,
      ⟨"terrain_id", Int, fun (x : Genie.Task) => x.terrain_id, fun x y => { x with terrain_id := y }, .int⟩,
      ⟨"resource_in", Int, fun (x : Genie.Task) => x.resource_in, fun x y => { x with resource_in := y }, .int⟩,
      ⟨"resource_multiplier", Int, fun (x : Genie.Task) => x.resource_multiplier, fun x y => { x with resource_multiplier := y }, .int⟩,
      ⟨"resource_out", Int, fun (x : Genie.Task) => x.resource_out, fun x y => { x with resource_out := y }, .int⟩,
      ⟨"unused_resource", Int, fun (x : Genie.Task) => x.unused_resource, fun x y => { x with unused_resource := y }, .int⟩,
      ⟨"work_value_1", PyFloat, fun (x : Genie.Task) => x.work_value_1, fun x y => { x with work_value_1 := y }, .float⟩,
      ⟨"work_value_2", PyFloat, fun (x : Genie.Task) => x.work_value_2, fun x y => { x with work_value_2 := y }, .float⟩,
      ⟨"work_range", PyFloat, fun (x : Genie.Task) => x.work_range, fun x y => { x with work_range := y }, .float⟩,
      ⟨"auto_search_targets", Int, fun (x : Genie.Task) => x.auto_search_targets, fun x y => { x with auto_search_targets := y }, .int⟩,
      ⟨"search_wait_time", PyFloat, fun (x : Genie.Task) => x.search_wait_time, fun x y => { x with search_wait_time := y }, .float⟩,
      ⟨"enable_targeting", Int, fun (x : Genie.Task) => x.enable_targeting, fun x y => { x with enable_targeting := y }, .int⟩,
      ⟨"combat_level_flag", Int, fun (x : Genie.Task) => x.combat_level_flag, fun x y => { x with combat_level_flag := y }, .int⟩,
      ⟨"gather_type", Int, fun (x : Genie.Task) => x.gather_type, fun x y => { x with gather_type := y }, .int⟩,
      ⟨"work_flag_2", Int, fun (x : Genie.Task) => x.work_flag_2, fun x y => { x with work_flag_2 := y }, .int⟩,
      ⟨"target_diplomacy", Int, fun (x : Genie.Task) => x.target_diplomacy, fun x y => { x with target_diplomacy := y }, .int⟩,
      ⟨"carry_check", Int, fun (x : Genie.Task) => x.carry_check, fun x y => { x with carry_check := y }, .int⟩,
      ⟨"pick_for_construction", Int, fun (x : Genie.Task) => x.pick_for_construction, fun x y => { x with pick_for_construction := y }, .int⟩,
      ⟨"moving_graphic_id", Int, fun (x : Genie.Task) => x.moving_graphic_id, fun x y => { x with moving_graphic_id := y }, .int⟩,
      ⟨"proceeding_graphic_id", Int, fun (x : Genie.Task) => x.proceeding_graphic_id, fun x y => { x with proceeding_graphic_id := y }, .int⟩,
      ⟨"working_graphic_id", Int, fun (x : Genie.Task) => x.working_graphic_id, fun x y => { x with working_graphic_id := y }, .int⟩,
      ⟨"carrying_graphic_id", Int, fun (x : Genie.Task) => x.carrying_graphic_id, fun x y => { x with carrying_graphic_id := y }, .int⟩,
      ⟨"resource_gathering_sound_id", Int, fun (x : Genie.Task) => x.resource_gathering_sound_id, fun x y => { x with resource_gathering_sound_id := y }, .int⟩,
      ⟨"resource_deposit_sound_id", Int, fun (x : Genie.Task) => x.resource_deposit_sound_id, fun x y => { x with resource_deposit_sound_id := y }, .int⟩,
      ⟨"wwise_resource_gathering_sound_id", Int, fun (x : Genie.Task) => x.wwise_resource_gathering_sound_id, fun x y => { x with wwise_resource_gathering_sound_id := y }, .int⟩,
      ⟨"wwise_resource_deposit_sound_id", Int, fun (x : Genie.Task) => x.wwise_resource_deposit_sound_id, fun x y => { x with wwise_resource_deposit_sound_id := y }, .int⟩,
      ⟨"enabled", Int, fun (x : Genie.Task) => x.enabled, fun x y => { x with enabled := y }, .int⟩]
  | .record .ResourceStorage => [
      ⟨"type", Int, fun (x : Genie.ResourceStorage) => x.type, fun x y => { x with type := y }, .int⟩,
      ⟨"amount", PyFloat, fun (x : Genie.ResourceStorage) => x.amount, fun x y => { x with amount := y }, .float⟩,
      ⟨"flag", Int, fun (x : Genie.ResourceStorage) => x.flag, fun x y => { x with flag := y }, .int⟩]
  | .record .DamageGraphic => [
      ⟨"graphic_id", Int, fun (x : Genie.DamageGraphic) => x.graphic_id, fun x y => { x with graphic_id := y }, .int⟩,
      ⟨"damage_percent", Int, fun (x : Genie.DamageGraphic) => x.damage_percent, fun x y => { x with damage_percent := y }, .int⟩,
      ⟨"apply_mode", Int, fun (x : Genie.DamageGraphic) => x.apply_mode, fun x y => { x with apply_mode := y }, .int⟩]
  | .record .DeadFish => [
      ⟨"walking_graphic", Int, fun (x : Genie.DeadFish) => x.walking_graphic, fun x y => { x with walking_graphic := y }, .int⟩,
      ⟨"running_graphic", Int, fun (x : Genie.DeadFish) => x.running_graphic, fun x y => { x with running_graphic := y }, .int⟩,
      ⟨"rotation_speed", PyFloat, fun (x : Genie.DeadFish) => x.rotation_speed, fun x y => { x with rotation_speed := y }, .float⟩,
      ⟨"old_size_class", Int, fun (x : Genie.DeadFish) => x.old_size_class, fun x y => { x with old_size_class := y }, .int⟩,
      ⟨"tracking_unit", Int, fun (x : Genie.DeadFish) => x.tracking_unit, fun x y => { x with tracking_unit := y }, .int⟩,
      ⟨"tracking_unit_mode", Int, fun (x : Genie.DeadFish) => x.tracking_unit_mode, fun x y => { x with tracking_unit_mode := y }, .int⟩,
      ⟨"tracking_unit_density", PyFloat, fun (x : Genie.DeadFish) => x.tracking_unit_density, fun x y => { x with tracking_unit_density := y }, .float⟩,
      ⟨"old_move_algorithm", Int, fun (x : Genie.DeadFish) => x.old_move_algorithm, fun x y => { x with old_move_algorithm := y }, .int⟩,
      ⟨"turn_radius", PyFloat, fun (x : Genie.DeadFish) => x.turn_radius, fun x y => { x with turn_radius := y }, .float⟩,
      ⟨"turn_radius_speed", PyFloat, fun (x : Genie.DeadFish) => x.turn_radius_speed, fun x y => { x with turn_radius_speed := y }, .float⟩,
      ⟨"max_yaw_per_second_moving", PyFloat, fun (x : Genie.DeadFish) => x.max_yaw_per_second_moving, fun x y => { x with max_yaw_per_second_moving := y }, .float⟩,
      ⟨"stationary_yaw_revolution_time", PyFloat, fun (x : Genie.DeadFish) => x.stationary_yaw_revolution_time, fun x y => { x with stationary_yaw_revolution_time := y }, .float⟩,
      ⟨"max_yaw_per_second_stationary", PyFloat, fun (x : Genie.DeadFish) => x.max_yaw_per_second_stationary, fun x y => { x with max_yaw_per_second_stationary := y }, .float⟩,
      ⟨"min_collision_size_multiplier", PyFloat, fun (x : Genie.DeadFish) => x.min_collision_size_multiplier, fun x y => { x with min_collision_size_multiplier := y }, .float⟩]
  | .record .Bird => [
      ⟨"default_task_id", Int, fun (x : Genie.Bird) => x.default_task_id, fun x y => { x with default_task_id := y }, .int⟩,
      ⟨"search_radius", PyFloat, fun (x : Genie.Bird) => x.search_radius, fun x y => { x with search_radius := y }, .float⟩,
      ⟨"work_rate", PyFloat, fun (x : Genie.Bird) => x.work_rate, fun x y => { x with work_rate := y }, .float⟩,
      ⟨"drop_sites", (List Int), fun (x : Genie.Bird) => x.drop_sites, fun x y => { x with drop_sites := y }, fun l => .list (l.map .int)⟩,
      ⟨"task_swap_group", Int, fun (x : Genie.Bird) => x.task_swap_group, fun x y => { x with task_swap_group := y }, .int⟩,
      ⟨"attack_sound", Int, fun (x : Genie.Bird) => x.attack_sound, fun x y => { x with attack_sound := y }, .int⟩,
      ⟨"move_sound", Int, fun (x : Genie.Bird) => x.move_sound, fun x y => { x with move_sound := y }, .int⟩,
      ⟨"wwise_attack_sound_id", Int, fun (x : Genie.Bird) => x.wwise_attack_sound_id, fun x y => { x with wwise_attack_sound_id := y }, .int⟩,
      ⟨"wwise_move_sound_id", Int, fun (x : Genie.Bird) => x.wwise_move_sound_id, fun x y => { x with wwise_move_sound_id := y }, .int⟩,
      ⟨"run_pattern", Int, fun (x : Genie.Bird) => x.run_pattern, fun x y => { x with run_pattern := y }, .int⟩,
      ⟨"tasks", (List Genie.Task), fun (x : Genie.Bird) => x.tasks, fun x y => { x with tasks := y }, fun l => .list (l.map Task.object)⟩]
  | .record .AttackOrArmor => [
      ⟨"class_", Int, fun (x : Genie.AttackOrArmor) => x.class_, fun x y => { x with class_ := y }, .int⟩,
      ⟨"amount", Int, fun (x : Genie.AttackOrArmor) => x.amount, fun x y => { x with amount := y }, .int⟩]
  | .record .Type50 => [
      ⟨"base_armor", Int, fun (x : Genie.Type50) => x.base_armor, fun x y => { x with base_armor := y }, .int⟩,
      ⟨"attacks", (List Genie.AttackOrArmor), fun (x : Genie.Type50) => x.attacks, fun x y => { x with attacks := y }, fun l => .list (l.map AttackOrArmor.object)⟩,
      ⟨"armours", (List Genie.AttackOrArmor), fun (x : Genie.Type50) => x.armours, fun x y => { x with armours := y }, fun l => .list (l.map AttackOrArmor.object)⟩,
      ⟨"defense_terrain_bonus", Int, fun (x : Genie.Type50) => x.defense_terrain_bonus, fun x y => { x with defense_terrain_bonus := y }, .int⟩,
      ⟨"bonus_damage_resistance", PyFloat, fun (x : Genie.Type50) => x.bonus_damage_resistance, fun x y => { x with bonus_damage_resistance := y }, .float⟩,
      ⟨"max_range", PyFloat, fun (x : Genie.Type50) => x.max_range, fun x y => { x with max_range := y }, .float⟩,
      ⟨"blast_width", PyFloat, fun (x : Genie.Type50) => x.blast_width, fun x y => { x with blast_width := y }, .float⟩,
      ⟨"reload_time", PyFloat, fun (x : Genie.Type50) => x.reload_time, fun x y => { x with reload_time := y }, .float⟩,
      ⟨"projectile_unit_id", Int, fun (x : Genie.Type50) => x.projectile_unit_id, fun x y => { x with projectile_unit_id := y }, .int⟩,
      ⟨"accuracy_percent", Int, fun (x : Genie.Type50) => x.accuracy_percent, fun x y => { x with accuracy_percent := y }, .int⟩,
      ⟨"break_off_combat", Int, fun (x : Genie.Type50) => x.break_off_combat, fun x y => { x with break_off_combat := y }, .int⟩,
      ⟨"frame_delay", Int, fun (x : Genie.Type50) => x.frame_delay, fun x y => { x with frame_delay := y }, .int⟩,
      ⟨"graphic_displacement", (List PyFloat), fun (x : Genie.Type50) => x.graphic_displacement, fun x y => { x with graphic_displacement := y }, fun l => .tuple (l.map .float)⟩,
      ⟨"blast_attack_level", Int, fun (x : Genie.Type50) => x.blast_attack_level, fun x y => { x with blast_attack_level := y }, .int⟩,
      ⟨"min_range", PyFloat, fun (x : Genie.Type50) => x.min_range, fun x y => { x with min_range := y }, .float⟩,
      ⟨"accuracy_dispersion", PyFloat, fun (x : Genie.Type50) => x.accuracy_dispersion, fun x y => { x with accuracy_dispersion := y }, .float⟩,
      ⟨"attack_graphic", Int, fun (x : Genie.Type50) => x.attack_graphic, fun x y => { x with attack_graphic := y }, .int⟩,
      ⟨"displayed_melee_armour", Int, fun (x : Genie.Type50) => x.displayed_melee_armour, fun x y => { x with displayed_melee_armour := y }, .int⟩,
      ⟨"displayed_attack", Int, fun (x : Genie.Type50) => x.displayed_attack, fun x y => { x with displayed_attack := y }, .int⟩,
      ⟨"displayed_range", PyFloat, fun (x : Genie.Type50) => x.displayed_range, fun x y => { x with displayed_range := y }, .float⟩,
      ⟨"displayed_reload_time", PyFloat, fun (x : Genie.Type50) => x.displayed_reload_time, fun x y => { x with displayed_reload_time := y }, .float⟩,
      ⟨"blast_damage", PyFloat, fun (x : Genie.Type50) => x.blast_damage, fun x y => { x with blast_damage := y }, .float⟩,
      ⟨"damage_reflection", PyFloat, fun (x : Genie.Type50) => x.damage_reflection, fun x y => { x with damage_reflection := y }, .float⟩,
      ⟨"friendly_fire_damage", PyFloat, fun (x : Genie.Type50) => x.friendly_fire_damage, fun x y => { x with friendly_fire_damage := y }, .float⟩,
      ⟨"interrupt_frame", Int, fun (x : Genie.Type50) => x.interrupt_frame, fun x y => { x with interrupt_frame := y }, .int⟩,
      ⟨"garrison_firepower", PyFloat, fun (x : Genie.Type50) => x.garrison_firepower, fun x y => { x with garrison_firepower := y }, .float⟩,
      ⟨"attack_graphic_2", Int, fun (x : Genie.Type50) => x.attack_graphic_2, fun x y => { x with attack_graphic_2 := y }, .int⟩]
  | .record .Projectile => [
      ⟨"projectile_type", Int, fun (x : Genie.Projectile) => x.projectile_type, fun x y => { x with projectile_type := y }, .int⟩,
      ⟨"smart_mode", Int, fun (x : Genie.Projectile) => x.smart_mode, fun x y => { x with smart_mode := y }, .int⟩,
      ⟨"hit_mode", Int, fun (x : Genie.Projectile) => x.hit_mode, fun x y => { x with hit_mode := y }, .int⟩,
      ⟨"vanish_mode", Int, fun (x : Genie.Projectile) => x.vanish_mode, fun x y => { x with vanish_mode := y }, .int⟩,
      ⟨"area_effect_specials", Int, fun (x : Genie.Projectile) => x.area_effect_specials, fun x y => { x with area_effect_specials := y }, .int⟩,
      ⟨"projectile_arc", PyFloat, fun (x : Genie.Projectile) => x.projectile_arc, fun x y => { x with projectile_arc := y }, .float⟩]
  | .record .ResourceCost => [
      ⟨"type", Int, fun (x : Genie.ResourceCost) => x.type, fun x y => { x with type := y }, .int⟩,
      ⟨"amount", Int, fun (x : Genie.ResourceCost) => x.amount, fun x y => { x with amount := y }, .int⟩,
      ⟨"flag", Int, fun (x : Genie.ResourceCost) => x.flag, fun x y => { x with flag := y }, .int⟩]
  | .record .TrainLocation => [
      ⟨"train_time", Int, fun (x : Genie.TrainLocation) => x.train_time, fun x y => { x with train_time := y }, .int⟩,
      ⟨"unit_id", Int, fun (x : Genie.TrainLocation) => x.unit_id, fun x y => { x with unit_id := y }, .int⟩,
      ⟨"button_id", Int, fun (x : Genie.TrainLocation) => x.button_id, fun x y => { x with button_id := y }, .int⟩,
      ⟨"hot_key_id", Int, fun (x : Genie.TrainLocation) => x.hot_key_id, fun x y => { x with hot_key_id := y }, .int⟩]
  | .record .Creatable => [
      ⟨"resource_costs", (List Genie.ResourceCost), fun (x : Genie.Creatable) => x.resource_costs, fun x y => { x with resource_costs := y }, fun l => .tuple (l.map ResourceCost.object)⟩,
      ⟨"train_locations", (List Genie.TrainLocation), fun (x : Genie.Creatable) => x.train_locations, fun x y => { x with train_locations := y }, fun l => .list (l.map TrainLocation.object)⟩,
      ⟨"rear_attack_modifier", PyFloat, fun (x : Genie.Creatable) => x.rear_attack_modifier, fun x y => { x with rear_attack_modifier := y }, .float⟩,
      ⟨"flank_attack_modifier", PyFloat, fun (x : Genie.Creatable) => x.flank_attack_modifier, fun x y => { x with flank_attack_modifier := y }, .float⟩,
      ⟨"creatable_type", Int, fun (x : Genie.Creatable) => x.creatable_type, fun x y => { x with creatable_type := y }, .int⟩,
      ⟨"hero_mode", Int, fun (x : Genie.Creatable) => x.hero_mode, fun x y => { x with hero_mode := y }, .int⟩,
      ⟨"garrison_graphic", Int, fun (x : Genie.Creatable) => x.garrison_graphic, fun x y => { x with garrison_graphic := y }, .int⟩,
      ⟨"spawning_graphic", Int, fun (x : Genie.Creatable) => x.spawning_graphic, fun x y => { x with spawning_graphic := y }, .int⟩,
      ⟨"upgrade_graphic", Int, fun (x : Genie.Creatable) => x.upgrade_graphic, fun x y => { x with upgrade_graphic := y }, .int⟩,
      ⟨"hero_glow_graphic", Int, fun (x : Genie.Creatable) => x.hero_glow_graphic, fun x y => { x with hero_glow_graphic := y }, .int⟩,
      ⟨"idle_attack_graphic", Int, fun (x : Genie.Creatable) => x.idle_attack_graphic, fun x y => { x with idle_attack_graphic := y }, .int⟩,
      ⟨"max_charge", PyFloat, fun (x : Genie.Creatable) => x.max_charge, fun x y => { x with max_charge := y }, .float⟩,
      ⟨"recharge_rate", PyFloat, fun (x : Genie.Creatable) => x.recharge_rate, fun x y => { x with recharge_rate := y }, .float⟩,
      ⟨"charge_event", Int, fun (x : Genie.Creatable) => x.charge_event, fun x y => { x with charge_event := y }, .int⟩,
      ⟨"charge_type", Int, fun (x : Genie.Creatable) => x.charge_type, fun x y => { x with charge_type := y }, .int⟩,
      ⟨"charge_target", Int, fun (x : Genie.Creatable) => x.charge_target, fun x y => { x with charge_target := y }, .int⟩,
      ⟨"charge_projectile_unit", Int, fun (x : Genie.Creatable) => x.charge_projectile_unit, fun x y => { x with charge_projectile_unit := y }, .int⟩,
      ⟨"attack_priority", Int, fun (x : Genie.Creatable) => x.attack_priority, fun x y => { x with attack_priority := y }, .int⟩,
      ⟨"invulnerability_level", PyFloat, fun (x : Genie.Creatable) => x.invulnerability_level, fun x y => { x with invulnerability_level := y }, .float⟩,
      ⟨"button_icon_id", Int, fun (x : Genie.Creatable) => x.button_icon_id, fun x y => { x with button_icon_id := y }, .int⟩,
      ⟨"button_short_tooltip_id", Int, fun (x : Genie.Creatable) => x.button_short_tooltip_id, fun x y => { x with button_short_tooltip_id := y }, .int⟩,
      ⟨"button_extended_tooltip_id", Int, fun (x : Genie.Creatable) => x.button_extended_tooltip_id, fun x y => { x with button_extended_tooltip_id := y }, .int⟩,
      ⟨"button_hotkey_action", Int, fun (x : Genie.Creatable) => x.button_hotkey_action, fun x y => { x with button_hotkey_action := y }, .int⟩,
      ⟨"min_conversion_time_mod", PyFloat, fun (x : Genie.Creatable) => x.min_conversion_time_mod, fun x y => { x with min_conversion_time_mod := y }, .float⟩,
      ⟨"max_conversion_time_mod", PyFloat, fun (x : Genie.Creatable) => x.max_conversion_time_mod, fun x y => { x with max_conversion_time_mod := y }, .float⟩,
      ⟨"conversion_chance_mod", PyFloat, fun (x : Genie.Creatable) => x.conversion_chance_mod, fun x y => { x with conversion_chance_mod := y }, .float⟩,
      ⟨"total_projectiles", PyFloat, fun (x : Genie.Creatable) => x.total_projectiles, fun x y => { x with total_projectiles := y }, .float⟩,
      ⟨"max_total_projectiles", Int, fun (x : Genie.Creatable) => x.max_total_projectiles, fun x y => { x with max_total_projectiles := y }, .int⟩,
      ⟨"projectile_spawning_area", (List PyFloat), fun (x : Genie.Creatable) => x.projectile_spawning_area, fun x y => { x with projectile_spawning_area := y }, fun l => .tuple (l.map .float)⟩,
      ⟨"secondary_projectile_unit", Int, fun (x : Genie.Creatable) => x.secondary_projectile_unit, fun x y => { x with secondary_projectile_unit := y }, .int⟩,
      ⟨"special_graphic", Int, fun (x : Genie.Creatable) => x.special_graphic, fun x y => { x with special_graphic := y }, .int⟩,
      ⟨"special_ability", Int, fun (x : Genie.Creatable) => x.special_ability, fun x y => { x with special_ability := y }, .int⟩,
      ⟨"displayed_pierce_armour", Int, fun (x : Genie.Creatable) => x.displayed_pierce_armour, fun x y => { x with displayed_pierce_armour := y }, .int⟩]
  | .record .BuildingAnnex => [
      ⟨"unit_id", Int, fun (x : Genie.BuildingAnnex) => x.unit_id, fun x y => { x with unit_id := y }, .int⟩,
      ⟨"misplacement_x", PyFloat, fun (x : Genie.BuildingAnnex) => x.misplacement_x, fun x y => { x with misplacement_x := y }, .float⟩,
      ⟨"misplacement_y", PyFloat, fun (x : Genie.BuildingAnnex) => x.misplacement_y, fun x y => { x with misplacement_y := y }, .float⟩]
  | .record .Building => [
      ⟨"construction_graphic_id", Int, fun (x : Genie.Building) => x.construction_graphic_id, fun x y => { x with construction_graphic_id := y }, .int⟩,
      ⟨"snow_graphic_id", Int, fun (x : Genie.Building) => x.snow_graphic_id, fun x y => { x with snow_graphic_id := y }, .int⟩,
      ⟨"destruction_graphic_id", Int, fun (x : Genie.Building) => x.destruction_graphic_id, fun x y => { x with destruction_graphic_id := y }, .int⟩,
      ⟨"destruction_rubble_graphic_id", Int, fun (x : Genie.Building) => x.destruction_rubble_graphic_id, fun x y => { x with destruction_rubble_graphic_id := y }, .int⟩,
      ⟨"researching_graphic", Int, fun (x : Genie.Building) => x.researching_graphic, fun x y => { x with researching_graphic := y }, .int⟩,
      ⟨"research_completed_graphic", Int, fun (x : Genie.Building) => x.research_completed_graphic, fun x y => { x with research_completed_graphic := y }, .int⟩,
      ⟨"adjacent_mode", Int, fun (x : Genie.Building) => x.adjacent_mode, fun x y => { x with adjacent_mode := y }, .int⟩,
      ⟨"graphics_angle", Int, fun (x : Genie.Building) => x.graphics_angle, fun x y => { x with graphics_angle := y }, .int⟩,
      ⟨"disappears_when_built", Int, fun (x : Genie.Building) => x.disappears_when_built, fun x y => { x with disappears_when_built := y }, .int⟩,
      ⟨"stack_unit_id", Int, fun (x : Genie.Building) => x.stack_unit_id, fun x y => { x with stack_unit_id := y }, .int⟩,
      ⟨"foundation_terrain_id", Int, fun (x : Genie.Building) => x.foundation_terrain_id, fun x y => { x with foundation_terrain_id := y }, .int⟩,
      ⟨"old_overlap_id", Int, fun (x : Genie.Building) => x.old_overlap_id, fun x y => { x with old_overlap_id := y }, .int⟩,
      ⟨"tech_id", Int, fun (x : Genie.Building) => x.tech_id, fun x y => { x with tech_id := y }, .int⟩,
      ⟨"can_burn", Int, fun (x : Genie.Building) => x.can_burn, fun x y => { x with can_burn := y }, .int⟩,
      ⟨"annexes", (List Genie.BuildingAnnex), fun (x : Genie.Building) => x.annexes, fun x y => { x with annexes := y }, fun l => .tuple (l.map BuildingAnnex.object)⟩,
      ⟨"head_unit", Int, fun (x : Genie.Building) => x.head_unit, fun x y => { x with head_unit := y }, .int⟩,
      ⟨"transform_unit", Int, fun (x : Genie.Building) => x.transform_unit, fun x y => { x with transform_unit := y }, .int⟩,
      ⟨"transform_sound", Int, fun (x : Genie.Building) => x.transform_sound, fun x y => { x with transform_sound := y }, .int⟩,
      ⟨"construction_sound", Int, fun (x : Genie.Building) => x.construction_sound, fun x y => { x with construction_sound := y }, .int⟩,
      ⟨"wwise_transform_sound_id", Int, fun (x : Genie.Building) => x.wwise_transform_sound_id, fun x y => { x with wwise_transform_sound_id := y }, .int⟩,
      ⟨"wwise_construction_sound_id", Int, fun (x : Genie.Building) => x.wwise_construction_sound_id, fun x y => { x with wwise_construction_sound_id := y }, .int⟩,
      ⟨"garrison_type", Int, fun (x : Genie.Building) => x.garrison_type, fun x y => { x with garrison_type := y }, .int⟩,
      ⟨"garrison_heal_rate", PyFloat, fun (x : Genie.Building) => x.garrison_heal_rate, fun x y => { x with garrison_heal_rate := y }, .float⟩,
      ⟨"garrison_repair_rate", PyFloat, fun (x : Genie.Building) => x.garrison_repair_rate, fun x y => { x with garrison_repair_rate := y }, .float⟩,
      ⟨"pile_unit", Int, fun (x : Genie.Building) => x.pile_unit, fun x y => { x with pile_unit := y }, .int⟩,
      ⟨"looting_table", (List Int), fun (x : Genie.Building) => x.looting_table, fun x y => { x with looting_table := y }, fun l => .tuple (l.map .int)⟩]
  | .record .Unit => [
      ⟨"type", Int, fun (x : Genie.Unit) => x.type, fun x y => { x with type := y }, .int⟩,
      ⟨"id", Int, fun (x : Genie.Unit) => x.id, fun x y => { x with id := y }, .int⟩,
      ⟨"language_dll_name", Int, fun (x : Genie.Unit) => x.language_dll_name, fun x y => { x with language_dll_name := y }, .int⟩,
      ⟨"language_dll_creation", Int, fun (x : Genie.Unit) => x.language_dll_creation, fun x y => { x with language_dll_creation := y }, .int⟩,
      ⟨"class_", Int, fun (x : Genie.Unit) => x.class_, fun x y => { x with class_ := y }, .int⟩,
      ⟨"standing_graphic", (List Int), fun (x : Genie.Unit) => x.standing_graphic, fun x y => { x with standing_graphic := y }, fun l => .tuple (l.map .int)⟩,
      ⟨"dying_graphic", Int, fun (x : Genie.Unit) => x.dying_graphic, fun x y => { x with dying_graphic := y }, .int⟩,
      ⟨"undead_graphic", Int, fun (x : Genie.Unit) => x.undead_graphic, fun x y => { x with undead_graphic := y }, .int⟩,
      ⟨"undead_mode", Int, fun (x : Genie.Unit) => x.undead_mode, fun x y => { x with undead_mode := y }, .int⟩,
      ⟨"hit_points", Int, fun (x : Genie.Unit) => x.hit_points, fun x y => { x with hit_points := y }, .int⟩,
      ⟨"line_of_sight", PyFloat, fun (x : Genie.Unit) => x.line_of_sight, fun x y => { x with line_of_sight := y }, .float⟩,
      ⟨"garrison_capacity", Int, fun (x : Genie.Unit) => x.garrison_capacity, fun x y => { x with garrison_capacity := y }, .int⟩,
      ⟨"collision_size_x", PyFloat, fun (x : Genie.Unit) => x.collision_size_x, fun x y => { x with collision_size_x := y }, .float⟩,
      ⟨"collision_size_y", PyFloat, fun (x : Genie.Unit) => x.collision_size_y, fun x y => { x with collision_size_y := y }, .float⟩,
      ⟨"collision_size_z", PyFloat, fun (x : Genie.Unit) => x.collision_size_z, fun x y => { x with collision_size_z := y }, .float⟩,
      ⟨"train_sound", Int, fun (x : Genie.Unit) => x.train_sound, fun x y => { x with train_sound := y }, .int⟩,
      ⟨"damage_sound", Int, fun (x : Genie.Unit) => x.damage_sound, fun x y => { x with damage_sound := y }, .int⟩,
      ⟨"dead_unit_id", Int, fun (x : Genie.Unit) => x.dead_unit_id, fun x y => { x with dead_unit_id := y }, .int⟩,
      ⟨"blood_unit_id", Int, fun (x : Genie.Unit) => x.blood_unit_id, fun x y => { x with blood_unit_id := y }, .int⟩,
      ⟨"sort_number", Int, fun (x : Genie.Unit) => x.sort_number, fun x y => { x with sort_number := y }, .int⟩,
      ⟨"can_be_built_on", Int, fun (x : Genie.Unit) => x.can_be_built_on, fun x y => { x with can_be_built_on := y }, .int⟩,
      ⟨"icon_id", Int, fun (x : Genie.Unit) => x.icon_id, fun x y => { x with icon_id := y }, .int⟩,
      ⟨"hide_in_editor", Int, fun (x : Genie.Unit) => x.hide_in_editor, fun x y => { x with hide_in_editor := y }, .int⟩,
      ⟨"old_portrait_pict", Int, fun (x : Genie.Unit) => x.old_portrait_pict, fun x y => { x with old_portrait_pict := y }, .int⟩,
      ⟨"enabled", Int, fun (x : Genie.Unit) => x.enabled, fun x y => { x with enabled := y }, .int⟩,
      ⟨"disabled", Int, fun (x : Genie.Unit) => x.disabled, fun x y => { x with disabled := y }, .int⟩,
      ⟨"placement_side_terrain", (List Int), fun (x : Genie.Unit) => x.placement_side_terrain, fun x y => { x with placement_side_terrain := y }, fun l => .tuple (l.map .int)⟩,
      ⟨"placement_terrain", (List Int), fun (x : Genie.Unit) => x.placement_terrain, fun x y => { x with placement_terrain := y }, fun l => .tuple (l.map .int)⟩,
      ⟨"clearance_size", (List PyFloat), fun (x : Genie.Unit) => x.clearance_size, fun x y => { x with clearance_size := y }, fun l => .tuple (l.map .float)⟩,
      ⟨"hill_mode", Int, fun (x : Genie.Unit) => x.hill_mode, fun x y => { x with hill_mode := y }, .int⟩,
      ⟨"fog_visibility", Int, fun (x : Genie.Unit) => x.fog_visibility, fun x y => { x with fog_visibility := y }, .int⟩,
      ⟨"terrain_restriction", Int, fun (x : Genie.Unit) => x.terrain_restriction, fun x y => { x with terrain_restriction := y }, .int⟩,
      ⟨"fly_mode", Int, fun (x : Genie.Unit) => x.fly_mode, fun x y => { x with fly_mode := y }, .int⟩,
      ⟨"resource_capacity", Int, fun (x : Genie.Unit) => x.resource_capacity, fun x y => { x with resource_capacity := y }, .int⟩,
      ⟨"resource_decay", PyFloat, fun (x : Genie.Unit) => x.resource_decay, fun x y => { x with resource_decay := y }, .float⟩,
      ⟨"blast_defense_level", Int, fun (x : Genie.Unit) => x.blast_defense_level, fun x y => { x with blast_defense_level := y }, .int⟩,
      ⟨"combat_level", Int, fun (x : Genie.Unit) => x.combat_level, fun x y => { x with combat_level := y }, .int⟩,
      ⟨"interaction_mode", Int, fun (x : Genie.Unit) => x.interaction_mode, fun x y => { x with interaction_mode := y }, .int⟩,
      ⟨"minimap_mode", Int, fun (x : Genie.Unit) => x.minimap_mode, fun x y => { x with minimap_mode := y }, .int⟩,
      ⟨"interface_kind", Int, fun (x : Genie.Unit) => x.interface_kind, fun x y => { x with interface_kind := y }, .int⟩,
      ⟨"multiple_attribute_mode", PyFloat, fun (x : Genie.Unit) => x.multiple_attribute_mode, fun x y => { x with multiple_attribute_mode := y }, .float⟩,
      ⟨"minimap_color", Int, fun (x : Genie.Unit) => x.minimap_color, fun x y => { x with minimap_color := y }, .int⟩,
      ⟨"language_dll_help", Int, fun (x : Genie.Unit) => x.language_dll_help, fun x y => { x with language_dll_help := y }, .int⟩,
      ⟨"language_dll_hotkey_text", Int, fun (x : Genie.Unit) => x.language_dll_hotkey_text, fun x y => { x with language_dll_hotkey_text := y }, .int⟩,
      ⟨"hot_key", Int, fun (x : Genie.Unit) => x.hot_key, fun x y => { x with hot_key := y }, .int⟩,
      ⟨"recyclable", Int, fun (x : Genie.Unit) => x.recyclable, fun x y => { x with recyclable := y }, .int⟩,
      ⟨"enable_auto_gather", Int, fun (x : Genie.Unit) => x.enable_auto_gather, fun x y => { x with enable_auto_gather := y }, .int⟩,
      ⟨"create_doppelganger_on_death", Int, fun (x : Genie.Unit) => x.create_doppelganger_on_death, fun x y => { x with create_doppelganger_on_death := y }, .int⟩,
      ⟨"resource_gather_group", Int, fun (x : Genie.Unit) => x.resource_gather_group, fun x y => { x with resource_gather_group := y }, .int⟩,
      ⟨"occlusion_mode", Int, fun (x : Genie.Unit) => x.occlusion_mode, fun x y => { x with occlusion_mode := y }, .int⟩,
      ⟨"obstruction_type", Int, fun (x : Genie.Unit) => x.obstruction_type, fun x y => { x with obstruction_type := y }, .int⟩,
      ⟨"obstruction_class", Int, fun (x : Genie.Unit) => x.obstruction_class, fun x y => { x with obstruction_class := y }, .int⟩,
      ⟨"trait", Int, fun (x : Genie.Unit) => x.trait, fun x y => { x with trait := y }, .int⟩,
      ⟨"civilization", Int, fun (x : Genie.Unit) => x.civilization, fun x y => { x with civilization := y }, .int⟩,
      ⟨"nothing", Int, fun (x : Genie.Unit) => x.nothing, fun x y => { x with nothing := y }, .int⟩,
      ⟨"selection_effect", Int, fun (x : Genie.Unit) => x.selection_effect, fun x y => { x with selection_effect := y }, .int⟩,
      ⟨"editor_selection_colour", Int, fun (x : Genie.Unit) => x.editor_selection_colour, fun x y => { x with editor_selection_colour := y }, .int⟩,
      ⟨"outline_size_x", PyFloat, fun (x : Genie.Unit) => x.outline_size_x, fun x y => { x with outline_size_x := y }, .float⟩,
      ⟨"outline_size_y", PyFloat, fun (x : Genie.Unit) => x.outline_size_y, fun x y => { x with outline_size_y := y }, .float⟩,
      ⟨"outline_size_z", PyFloat, fun (x : Genie.Unit) => x.outline_size_z, fun x y => { x with outline_size_z := y }, .float⟩,
      ⟨"scenario_triggers_1", Int, fun (x : Genie.Unit) => x.scenario_triggers_1, fun x y => { x with scenario_triggers_1 := y }, .int⟩,
      ⟨"scenario_triggers_2", Int, fun (x : Genie.Unit) => x.scenario_triggers_2, fun x y => { x with scenario_triggers_2 := y }, .int⟩,
      ⟨"resource_storages", (List Genie.ResourceStorage), fun (x : Genie.Unit) => x.resource_storages, fun x y => { x with resource_storages := y }, fun l => .tuple (l.map ResourceStorage.object)⟩,
      ⟨"damage_graphics", (List Genie.DamageGraphic), fun (x : Genie.Unit) => x.damage_graphics, fun x y => { x with damage_graphics := y }, fun l => .list (l.map DamageGraphic.object)⟩,
      ⟨"selection_sound", Int, fun (x : Genie.Unit) => x.selection_sound, fun x y => { x with selection_sound := y }, .int⟩,
      ⟨"dying_sound", Int, fun (x : Genie.Unit) => x.dying_sound, fun x y => { x with dying_sound := y }, .int⟩,
      ⟨"wwise_train_sound_id", Int, fun (x : Genie.Unit) => x.wwise_train_sound_id, fun x y => { x with wwise_train_sound_id := y }, .int⟩,
      ⟨"wwise_damage_sound_id", Int, fun (x : Genie.Unit) => x.wwise_damage_sound_id, fun x y => { x with wwise_damage_sound_id := y }, .int⟩,
      ⟨"wwise_selection_sound_id", Int, fun (x : Genie.Unit) => x.wwise_selection_sound_id, fun x y => { x with wwise_selection_sound_id := y }, .int⟩,
      ⟨"wwise_dying_sound_id", Int, fun (x : Genie.Unit) => x.wwise_dying_sound_id, fun x y => { x with wwise_dying_sound_id := y }, .int⟩,
      ⟨"old_attack_reaction", Int, fun (x : Genie.Unit) => x.old_attack_reaction, fun x y => { x with old_attack_reaction := y }, .int⟩,
      ⟨"convert_terrain", Int, fun (x : Genie.Unit) => x.convert_terrain, fun x y => { x with convert_terrain := y }, .int⟩,
      ⟨"name", PyStr, fun (x : Genie.Unit) => x.name, fun x y => { x with name := y }, .str⟩,
      ⟨"copy_id", Int, fun (x : Genie.Unit) => x.copy_id, fun x y => { x with copy_id := y }, .int⟩,
      ⟨"base_id", Int, fun (x : Genie.Unit) => x.base_id, fun x y => { x with base_id := y }, .int⟩,
      ⟨"speed", (Option PyFloat), fun (x : Genie.Unit) => x.speed, fun x y => { x with speed := y }, optObj .float⟩,
      ⟨"dead_fish", (Option Genie.DeadFish), fun (x : Genie.Unit) => x.dead_fish, fun x y => { x with dead_fish := y }, optObj DeadFish.object⟩,
      ⟨"bird", (Option Genie.Bird), fun (x : Genie.Unit) => x.bird, fun x y => { x with bird := y }, optObj Bird.object⟩,
      ⟨"type_50", (Option Genie.Type50), fun (x : Genie.Unit) => x.type_50, fun x y => { x with type_50 := y }, optObj Type50.object⟩,
      ⟨"projectile", (Option Genie.Projectile), fun (x : Genie.Unit) => x.projectile, fun x y => { x with projectile := y }, optObj Projectile.object⟩,
      ⟨"creatable", (Option Genie.Creatable), fun (x : Genie.Unit) => x.creatable, fun x y => { x with creatable := y }, optObj (Creatable.object false)⟩,
      ⟨"building", (Option Genie.Building), fun (x : Genie.Unit) => x.building, fun x y => { x with building := y }, optObj Building.object⟩]
  | .record .UnitHeaders => [
      ⟨"exists", Int, fun (x : Genie.UnitHeaders) => x.exists_, fun x y => { x with exists_ := y }, .int⟩,
      ⟨"task_list", (Option (List Genie.Task)), fun (x : Genie.UnitHeaders) => x.task_list, fun x y => { x with task_list := y }, optObj fun l => .list (l.map Task.object)⟩]
  | .record .Civ => [
      ⟨"player_type", Int, fun (x : Genie.Civ) => x.player_type, fun x y => { x with player_type := y }, .int⟩,
      ⟨"name", PyStr, fun (x : Genie.Civ) => x.name, fun x y => { x with name := y }, .str⟩,
      ⟨"tech_tree_id", Int, fun (x : Genie.Civ) => x.tech_tree_id, fun x y => { x with tech_tree_id := y }, .int⟩,
      ⟨"team_bonus_id", Int, fun (x : Genie.Civ) => x.team_bonus_id, fun x y => { x with team_bonus_id := y }, .int⟩,
      ⟨"resources", (List PyFloat), fun (x : Genie.Civ) => x.resources, fun x y => { x with resources := y }, fun l => .list (l.map .float)⟩,
      ⟨"icon_set", Int, fun (x : Genie.Civ) => x.icon_set, fun x y => { x with icon_set := y }, .int⟩,
      ⟨"units", (List (Option Genie.Unit)), fun (x : Genie.Civ) => x.units, fun x y => { x with units := y }, fun l => .list (l.map (optObj (Unit.object false)))⟩]
  | .file => [
      ⟨"version", PyStr, fun (x : Genie.DatFile) => x.version, fun x y => { x with version := y }, .str⟩,
      ⟨"float_ptr_terrain_tables", (List Int), fun (x : Genie.DatFile) => x.float_ptr_terrain_tables, fun x y => { x with float_ptr_terrain_tables := y }, fun l => .list (l.map .int)⟩,
      ⟨"terrain_pass_graphic_pointers", (List Int), fun (x : Genie.DatFile) => x.terrain_pass_graphic_pointers, fun x y => { x with terrain_pass_graphic_pointers := y }, fun l => .list (l.map .int)⟩,
      ⟨"terrain_restrictions", (List Genie.TerrainRestriction), fun (x : Genie.DatFile) => x.terrain_restrictions, fun x y => { x with terrain_restrictions := y }, fun l => .list (l.map TerrainRestriction.object)⟩,
      ⟨"player_colours", (List Genie.PlayerColour), fun (x : Genie.DatFile) => x.player_colours, fun x y => { x with player_colours := y }, fun l => .list (l.map PlayerColour.object)⟩,
      ⟨"sounds", (List Genie.Sound), fun (x : Genie.DatFile) => x.sounds, fun x y => { x with sounds := y }, fun l => .list (l.map Sound.object)⟩,
      ⟨"graphics", (List (Option Genie.Graphic)), fun (x : Genie.DatFile) => x.graphics, fun x y => { x with graphics := y }, fun l => .list (l.map (optObj Graphic.object))⟩,
      ⟨"terrain_block", Genie.TerrainBlock, fun (x : Genie.DatFile) => x.terrain_block, fun x y => { x with terrain_block := y }, TerrainBlock.object⟩,
      ⟨"random_maps", Genie.RandomMaps, fun (x : Genie.DatFile) => x.random_maps, fun x y => { x with random_maps := y }, RandomMaps.object⟩,
      ⟨"effects", (List Genie.Effect), fun (x : Genie.DatFile) => x.effects, fun x y => { x with effects := y }, fun l => .list (l.map Effect.object)⟩,
      ⟨"unit_headers", (List Genie.UnitHeaders), fun (x : Genie.DatFile) => x.unit_headers, fun x y => { x with unit_headers := y }, fun l => .list (l.map UnitHeaders.object)⟩,
      ⟨"civs", (List Genie.Civ), fun (x : Genie.DatFile) => x.civs, fun x y => { x with civs := y }, fun l => .list (l.map (Civ.object false))⟩,
      ⟨"techs", (List Genie.Tech), fun (x : Genie.DatFile) => x.techs, fun x y => { x with techs := y }, fun l => .list (l.map Tech.object)⟩,
      ⟨"time_slice", Int, fun (x : Genie.DatFile) => x.time_slice, fun x y => { x with time_slice := y }, .int⟩,
      ⟨"unit_kill_rate", Int, fun (x : Genie.DatFile) => x.unit_kill_rate, fun x y => { x with unit_kill_rate := y }, .int⟩,
      ⟨"unit_kill_total", Int, fun (x : Genie.DatFile) => x.unit_kill_total, fun x y => { x with unit_kill_total := y }, .int⟩,
      ⟨"unit_hit_point_rate", Int, fun (x : Genie.DatFile) => x.unit_hit_point_rate, fun x y => { x with unit_hit_point_rate := y }, .int⟩,
      ⟨"unit_hit_point_total", Int, fun (x : Genie.DatFile) => x.unit_hit_point_total, fun x y => { x with unit_hit_point_total := y }, .int⟩,
      ⟨"razing_kill_rate", Int, fun (x : Genie.DatFile) => x.razing_kill_rate, fun x y => { x with razing_kill_rate := y }, .int⟩,
      ⟨"razing_kill_total", Int, fun (x : Genie.DatFile) => x.razing_kill_total, fun x y => { x with razing_kill_total := y }, .int⟩,
      ⟨"tech_tree", Genie.TechTree, fun (x : Genie.DatFile) => x.tech_tree, fun x y => { x with tech_tree := y }, TechTree.object⟩]

/-- Those that hold lists.  (`UnitHeaders.task_list` may be `None` and is not among them.) -/
def Node.listAttrs : (n : Node) → List (ListAttr n.Obj)
  | .record .Effect => [
      ⟨"effect_commands", Genie.EffectCommand, fun (x : Genie.Effect) => x.effect_commands, fun x y => { x with effect_commands := y }, EffectCommand.object⟩]
  | .record .Sound => [
      ⟨"items", Genie.SoundItem, fun (x : Genie.Sound) => x.items, fun x y => { x with items := y }, SoundItem.object⟩]
  | .record .Graphic => [
      ⟨"deltas", Genie.GraphicDelta, fun (x : Genie.Graphic) => x.deltas, fun x y => { x with deltas := y }, GraphicDelta.object⟩,
      ⟨"angle_sounds", Genie.GraphicAngleSound, fun (x : Genie.Graphic) => x.angle_sounds, fun x y => { x with angle_sounds := y }, GraphicAngleSound.object⟩]
  | .record (.TerrainRestriction _) => [
      ⟨"passable_buildable_dmg_multiplier", PyFloat, fun (x : Genie.TerrainRestriction) => x.passable_buildable_dmg_multiplier, fun x y => { x with passable_buildable_dmg_multiplier := y }, .float⟩,
      ⟨"terrain_pass_graphics", Genie.TerrainPassGraphic, fun (x : Genie.TerrainRestriction) => x.terrain_pass_graphics, fun x y => { x with terrain_pass_graphics := y }, TerrainPassGraphic.object⟩]
  | .record .Terrain => [
      ⟨"frame_data", Genie.FrameData, fun (x : Genie.Terrain) => x.frame_data, fun x y => { x with frame_data := y }, FrameData.object⟩,
      ⟨"terrain_unit_masked_density", Int, fun (x : Genie.Terrain) => x.terrain_unit_masked_density, fun x y => { x with terrain_unit_masked_density := y }, .int⟩,
      ⟨"terrain_unit_id", Int, fun (x : Genie.Terrain) => x.terrain_unit_id, fun x y => { x with terrain_unit_id := y }, .int⟩,
      ⟨"terrain_unit_density", Int, fun (x : Genie.Terrain) => x.terrain_unit_density, fun x y => { x with terrain_unit_density := y }, .int⟩,
      ⟨"terrain_unit_centering", Int, fun (x : Genie.Terrain) => x.terrain_unit_centering, fun x y => { x with terrain_unit_centering := y }, .int⟩]
  | .record .TerrainBlock => [
      ⟨"tile_sizes", Genie.TileSize, fun (x : Genie.TerrainBlock) => x.tile_sizes, fun x y => { x with tile_sizes := y }, TileSize.object⟩,
      ⟨"terrains", Genie.Terrain, fun (x : Genie.TerrainBlock) => x.terrains, fun x y => { x with terrains := y }, Terrain.object⟩]
  | .record .MapInfo => [
      ⟨"map_lands", Genie.MapLand, fun (x : Genie.MapInfo) => x.map_lands, fun x y => { x with map_lands := y }, MapLand.object⟩,
      ⟨"map_terrains", Genie.MapTerrain, fun (x : Genie.MapInfo) => x.map_terrains, fun x y => { x with map_terrains := y }, MapTerrain.object⟩,
      ⟨"map_units", Genie.MapUnit, fun (x : Genie.MapInfo) => x.map_units, fun x y => { x with map_units := y }, MapUnit.object⟩,
      ⟨"map_elevations", Genie.MapElevation, fun (x : Genie.MapInfo) => x.map_elevations, fun x y => { x with map_elevations := y }, MapElevation.object⟩]
  | .record .RandomMaps => [
      ⟨"map_info_1", Genie.MapInfo, fun (x : Genie.RandomMaps) => x.map_info_1, fun x y => { x with map_info_1 := y }, MapInfo.object⟩,
      ⟨"map_info_2", Genie.MapInfo, fun (x : Genie.RandomMaps) => x.map_info_2, fun x y => { x with map_info_2 := y }, MapInfo.object⟩]
  | .record .Tech => [
      ⟨"research_locations", Genie.ResearchLocation, fun (x : Genie.Tech) => x.research_locations, fun x y => { x with research_locations := y }, ResearchLocation.object⟩]
  | .record .TechTreeAge => [
      ⟨"buildings", Int, fun (x : Genie.TechTreeAge) => x.buildings, fun x y => { x with buildings := y }, .int⟩,
      ⟨"units", Int, fun (x : Genie.TechTreeAge) => x.units, fun x y => { x with units := y }, .int⟩,
      ⟨"techs", Int, fun (x : Genie.TechTreeAge) => x.techs, fun x y => { x with techs := y }, .int⟩]
  | .record .BuildingConnection => [
      ⟨"buildings", Int, fun (x : Genie.BuildingConnection) => x.buildings, fun x y => { x with buildings := y }, .int⟩,
      ⟨"units", Int, fun (x : Genie.BuildingConnection) => x.units, fun x y => { x with units := y }, .int⟩,
      ⟨"techs", Int, fun (x : Genie.BuildingConnection) => x.techs, fun x y => { x with techs := y }, .int⟩]
  | .record .UnitConnection => [
      ⟨"units", Int, fun (x : Genie.UnitConnection) => x.units, fun x y => { x with units := y }, .int⟩]
  | .record .ResearchConnection => [
      ⟨"buildings", Int, fun (x : Genie.ResearchConnection) => x.buildings, fun x y => { x with buildings := y }, .int⟩,
      ⟨"units", Int, fun (x : Genie.ResearchConnection) => x.units, fun x y => { x with units := y }, .int⟩,
      ⟨"techs", Int, fun (x : Genie.ResearchConnection) => x.techs, fun x y => { x with techs := y }, .int⟩]
  | .record .TechTree => [
      ⟨"tech_tree_ages", Genie.TechTreeAge, fun (x : Genie.TechTree) => x.tech_tree_ages, fun x y => { x with tech_tree_ages := y }, TechTreeAge.object⟩,
      ⟨"building_connections", Genie.BuildingConnection, fun (x : Genie.TechTree) => x.building_connections, fun x y => { x with building_connections := y }, BuildingConnection.object⟩,
      ⟨"unit_connections", Genie.UnitConnection, fun (x : Genie.TechTree) => x.unit_connections, fun x y => { x with unit_connections := y }, UnitConnection.object⟩,
      ⟨"research_connections", Genie.ResearchConnection, fun (x : Genie.TechTree) => x.research_connections, fun x y => { x with research_connections := y }, ResearchConnection.object⟩]
  | .record .Bird => [
      ⟨"drop_sites", Int, fun (x : Genie.Bird) => x.drop_sites, fun x y => { x with drop_sites := y }, .int⟩,
      ⟨"tasks", Genie.Task, fun (x : Genie.Bird) => x.tasks, fun x y => { x with tasks := y }, Task.object⟩]
  | .record .Type50 => [
      ⟨"attacks", Genie.AttackOrArmor, fun (x : Genie.Type50) => x.attacks, fun x y => { x with attacks := y }, AttackOrArmor.object⟩,
      ⟨"armours", Genie.AttackOrArmor, fun (x : Genie.Type50) => x.armours, fun x y => { x with armours := y }, AttackOrArmor.object⟩]
  | .record .Creatable => [
      ⟨"train_locations", Genie.TrainLocation, fun (x : Genie.Creatable) => x.train_locations, fun x y => { x with train_locations := y }, TrainLocation.object⟩]
  | .record .Unit => [
      ⟨"damage_graphics", Genie.DamageGraphic, fun (x : Genie.Unit) => x.damage_graphics, fun x y => { x with damage_graphics := y }, DamageGraphic.object⟩]
  | .record .Civ => [
      ⟨"resources", PyFloat, fun (x : Genie.Civ) => x.resources, fun x y => { x with resources := y }, .float⟩,
      ⟨"units", (Option Genie.Unit), fun (x : Genie.Civ) => x.units, fun x y => { x with units := y }, (optObj (Unit.object false))⟩]
  | .file => [
      ⟨"float_ptr_terrain_tables", Int, fun (x : Genie.DatFile) => x.float_ptr_terrain_tables, fun x y => { x with float_ptr_terrain_tables := y }, .int⟩,
      ⟨"terrain_pass_graphic_pointers", Int, fun (x : Genie.DatFile) => x.terrain_pass_graphic_pointers, fun x y => { x with terrain_pass_graphic_pointers := y }, .int⟩,
      ⟨"terrain_restrictions", Genie.TerrainRestriction, fun (x : Genie.DatFile) => x.terrain_restrictions, fun x y => { x with terrain_restrictions := y }, TerrainRestriction.object⟩,
      ⟨"player_colours", Genie.PlayerColour, fun (x : Genie.DatFile) => x.player_colours, fun x y => { x with player_colours := y }, PlayerColour.object⟩,
      ⟨"sounds", Genie.Sound, fun (x : Genie.DatFile) => x.sounds, fun x y => { x with sounds := y }, Sound.object⟩,
      ⟨"graphics", (Option Genie.Graphic), fun (x : Genie.DatFile) => x.graphics, fun x y => { x with graphics := y }, (optObj Graphic.object)⟩,
      ⟨"effects", Genie.Effect, fun (x : Genie.DatFile) => x.effects, fun x y => { x with effects := y }, Effect.object⟩,
      ⟨"unit_headers", Genie.UnitHeaders, fun (x : Genie.DatFile) => x.unit_headers, fun x y => { x with unit_headers := y }, UnitHeaders.object⟩,
      ⟨"civs", Genie.Civ, fun (x : Genie.DatFile) => x.civs, fun x y => { x with civs := y }, (Civ.object false)⟩,
      ⟨"techs", Genie.Tech, fun (x : Genie.DatFile) => x.techs, fun x y => { x with techs := y }, Tech.object⟩]
  | _ => []

end Genie
