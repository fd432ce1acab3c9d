import Verif.Model.Datfile
/-!
# `python -O`

With `-O` Python leaves out `assert`.  The readers and writers that contain an assert, or call one that does, once more without it
(generated by `tools/gen_optimized.py` from the model; all other functions are shared).
-/

namespace Genie

/-- `read_debug_string` — `/repo/src/genieutils/common.py:101-105`, without `assert`. -/
def readDebugStringO : Reader PyStr := do
  let _tmp_size ← readInt16 (signed := false)
  let size ← readInt16 (signed := false)
  let c ← consumeRange size.toNat
  noteLossy (decide (rstripNul c ≠ c))
  liftPy (String_from_bytes c)

/-- `Effect.from_bytes` — `/repo/src/genieutils/effect.py:41-48`, without `assert`. -/
def Effect.fromBytesO : Reader Effect := do
  let name ← readDebugStringO
  let effect_command_count ← readInt16
  let effect_commands ← readClassArray EffectCommand.fromBytes effect_command_count
  return {
    name := name,
    effect_commands := effect_commands }

/-- `SoundItem.from_bytes` — `/repo/src/genieutils/sound.py:16-23`, without `assert`. -/
def SoundItem.fromBytesO : Reader SoundItem := do
  let filename ← readDebugStringO
  let resource_id ← readInt32
  let probability ← readInt16
  let civilization ← readInt16
  let icon_set ← readInt16
  return {
    filename := filename,
    resource_id := resource_id,
    probability := probability,
    civilization := civilization,
    icon_set := icon_set }

/-- `Sound.from_bytes` — `/repo/src/genieutils/sound.py:44-57`, without `assert`. -/
def Sound.fromBytesO : Reader Sound := do
  let id_ ← readInt16
  let play_delay ← readInt16
  let items_size ← readInt16
  let cache_time ← readInt32
  let total_probability ← readInt16
  let items ← readClassArray SoundItem.fromBytesO items_size
  return {
    id := id_,
    play_delay := play_delay,
    cache_time := cache_time,
    total_probability := total_probability,
    items := items }

/-- `Graphic.from_bytes` — `/repo/src/genieutils/graphic.py:109-160`, without `assert`. -/
def Graphic.fromBytesO : Reader Graphic := do
  let name ← readDebugStringO
  let file_name ← readDebugStringO
  let particle_effect_name ← readDebugStringO
  let slp ← readInt32
  let is_loaded ← readInt8
  let old_color_flag ← readInt8
  let layer ← readInt8
  let player_color ← readInt16
  let transparent_selection ← readInt8
  let coordinates ← readInt16Array4
  let delta_count ← readInt16
  let sound_id ← readInt16
  let wwise_sound_id ← readInt32
  let angle_sounds_used ← readInt8
  let frame_count ← readInt16
  let angle_count ← readInt16
  let speed_multiplier ← readFloat
  let frame_duration ← readFloat
  let replay_delay ← readFloat
  let sequence_type ← readInt8
  let id_ ← readInt16
  let mirroring_mode ← readInt8
  let editor_flag ← readInt8
  let deltas ← readClassArray GraphicDelta.fromBytes delta_count
  let angle_sounds ← readOr (angle_sounds_used ≠ 0) (readClassArray GraphicAngleSound.fromBytes angle_count (countStored := true)) []
  return {
    name := name,
    file_name := file_name,
    particle_effect_name := particle_effect_name,
    slp := slp,
    is_loaded := is_loaded,
    old_color_flag := old_color_flag,
    layer := layer,
    player_color := player_color,
    transparent_selection := transparent_selection,
    coordinates := coordinates,
    sound_id := sound_id,
    wwise_sound_id := wwise_sound_id,
    angle_sounds_used := angle_sounds_used,
    frame_count := frame_count,
    angle_count := angle_count,
    speed_multiplier := speed_multiplier,
    frame_duration := frame_duration,
    replay_delay := replay_delay,
    sequence_type := sequence_type,
    id := id_,
    mirroring_mode := mirroring_mode,
    editor_flag := editor_flag,
    deltas := deltas,
    angle_sounds := angle_sounds }

/-- `Terrain.from_bytes` — `/repo/src/genieutils/terrainblock.py:71-111`, without `assert`. -/
def Terrain.fromBytesO : Reader Terrain := do
  let enabled ← readInt8
  let random ← readInt8
  let is_water ← readInt8
  let hide_in_editor ← readInt8
  let string_id ← readInt32
  let name ← readDebugStringO
  let name_2 ← readDebugStringO
  let slp ← readInt32
  let shape_ptr ← readInt32
  let sound_id ← readInt32
  let wwise_sound_id ← readInt32 (signed := false)
  let wwise_sound_stop_id ← readInt32 (signed := false)
  let blend_priority ← readInt32
  let blend_type ← readInt32
  let overlay_mask_name ← readDebugStringO
  let colors ← readInt8Array3
  let cliff_colors ← readInt8Array2
  let passable_terrain ← readInt8
  let impassable_terrain ← readInt8
  let is_animated ← readInt8
  let animation_frames ← readInt16
  let pause_frames ← readInt16
  let interval ← readFloat
  let pause_between_loops ← readFloat
  let frame ← readInt16
  let draw_frame ← readInt16
  let animate_last ← readFloat
  let frame_changed ← readInt8
  let drawn ← readInt8
  let frame_data ← readClassArray FrameData.fromBytes TILE_TYPE_COUNT
  let terrain_to_draw ← readInt16
  let terrain_dimensions ← readInt16Array2
  let terrain_unit_masked_density ← readInt16Array TERRAIN_UNITS_SIZE
  let terrain_unit_id ← readInt16Array TERRAIN_UNITS_SIZE
  let terrain_unit_density ← readInt16Array TERRAIN_UNITS_SIZE
  let terrain_unit_centering ← readInt8Array TERRAIN_UNITS_SIZE
  let number_of_terrain_units_used ← readInt16
  let phantom ← readInt16
  return {
    enabled := enabled,
    random := random,
    is_water := is_water,
    hide_in_editor := hide_in_editor,
    string_id := string_id,
    name := name,
    name_2 := name_2,
    slp := slp,
    shape_ptr := shape_ptr,
    sound_id := sound_id,
    wwise_sound_id := wwise_sound_id,
    wwise_sound_stop_id := wwise_sound_stop_id,
    blend_priority := blend_priority,
    blend_type := blend_type,
    overlay_mask_name := overlay_mask_name,
    colors := colors,
    cliff_colors := cliff_colors,
    passable_terrain := passable_terrain,
    impassable_terrain := impassable_terrain,
    is_animated := is_animated,
    animation_frames := animation_frames,
    pause_frames := pause_frames,
    interval := interval,
    pause_between_loops := pause_between_loops,
    frame := frame,
    draw_frame := draw_frame,
    animate_last := animate_last,
    frame_changed := frame_changed,
    drawn := drawn,
    frame_data := frame_data,
    terrain_to_draw := terrain_to_draw,
    terrain_dimensions := terrain_dimensions,
    terrain_unit_masked_density := terrain_unit_masked_density,
    terrain_unit_id := terrain_unit_id,
    terrain_unit_density := terrain_unit_density,
    terrain_unit_centering := terrain_unit_centering,
    number_of_terrain_units_used := number_of_terrain_units_used,
    phantom := phantom }

/-- `TerrainBlock.from_bytes` — `/repo/src/genieutils/terrainblock.py:216-252`, without `assert`. -/
def TerrainBlock.fromBytesO : Reader TerrainBlock := do
  let virtual_function_ptr ← readInt32 (signed := false)
  let map_pointer ← readInt32 (signed := false)
  let map_width ← readInt32
  let map_height ← readInt32
  let world_width ← readInt32
  let world_height ← readInt32
  let tile_sizes ← readClassArray TileSize.fromBytes TILE_TYPE_COUNT
  let padding_ts ← readInt16
  let terrains ← readClassArray Terrain.fromBytesO TERRAIN_COUNT
  let map_min_x ← readFloat
  let map_min_y ← readFloat
  let map_max_x ← readFloat
  let map_max_y ← readFloat
  let map_max_x_plus_1 ← readFloat
  let map_max_y_plus_1 ← readFloat
  let terrains_used_2 ← readInt16
  let borders_used ← readInt16
  let max_terrain ← readInt16
  let tile_width ← readInt16
  let tile_height ← readInt16
  let tile_half_height ← readInt16
  let tile_half_width ← readInt16
  let elev_height ← readInt16
  let cur_row ← readInt16
  let cur_col ← readInt16
  let block_beg_row ← readInt16
  let block_end_row ← readInt16
  let block_beg_col ← readInt16
  let block_end_col ← readInt16
  let search_map_ptr ← readInt32 (signed := false)
  let search_map_rows_ptr ← readInt32 (signed := false)
  let any_frame_change ← readInt8
  let map_visible_flag ← readInt8
  let fog_flag ← readInt8
  return {
    virtual_function_ptr := virtual_function_ptr,
    map_pointer := map_pointer,
    map_width := map_width,
    map_height := map_height,
    world_width := world_width,
    world_height := world_height,
    tile_sizes := tile_sizes,
    padding_ts := padding_ts,
    terrains := terrains,
    map_min_x := map_min_x,
    map_min_y := map_min_y,
    map_max_x := map_max_x,
    map_max_y := map_max_y,
    map_max_x_plus_1 := map_max_x_plus_1,
    map_max_y_plus_1 := map_max_y_plus_1,
    terrains_used_2 := terrains_used_2,
    borders_used := borders_used,
    max_terrain := max_terrain,
    tile_width := tile_width,
    tile_height := tile_height,
    tile_half_height := tile_half_height,
    tile_half_width := tile_half_width,
    elev_height := elev_height,
    cur_row := cur_row,
    cur_col := cur_col,
    block_beg_row := block_beg_row,
    block_end_row := block_end_row,
    block_beg_col := block_beg_col,
    block_end_col := block_end_col,
    search_map_ptr := search_map_ptr,
    search_map_rows_ptr := search_map_rows_ptr,
    any_frame_change := any_frame_change,
    map_visible_flag := map_visible_flag,
    fog_flag := fog_flag }

/-- `Tech.from_bytes84` — `/repo/src/genieutils/tech.py:79-120`, without `assert`. -/
def Tech.fromBytes84O : Reader Tech := do
  let required_techs ← readInt16Array6
  let resource_costs ← readClassArray3 ResearchResourceCost.fromBytes
  let required_tech_count ← readInt16
  let civ ← readInt16
  let full_tech_mode ← readInt16
  let research_location ← readInt16
  let language_dll_name ← readInt32
  let language_dll_description ← readInt32
  let research_time ← readInt16
  let effect_id ← readInt16
  let type ← readInt16
  let icon_id ← readInt16
  let button_id ← readInt8
  let language_dll_help ← readInt32
  let language_dll_tech_tree ← readInt32
  let hot_key ← readInt32
  let name ← readDebugStringO
  let repeatable ← readInt8
  let research_locations : List ResearchLocation := [{ button_id := button_id, research_time := research_time, hot_key_id := hot_key, location_id := research_location }]
  return {
    required_techs := required_techs,
    resource_costs := resource_costs,
    required_tech_count := required_tech_count,
    civ := civ,
    full_tech_mode := full_tech_mode,
    language_dll_name := language_dll_name,
    language_dll_description := language_dll_description,
    effect_id := effect_id,
    type := type,
    icon_id := icon_id,
    language_dll_help := language_dll_help,
    language_dll_tech_tree := language_dll_tech_tree,
    name := name,
    repeatable := repeatable,
    research_locations := research_locations }

/-- `Tech.from_bytes88` — `/repo/src/genieutils/tech.py:123-156`, without `assert`. -/
def Tech.fromBytes88O : Reader Tech := do
  let required_techs ← readInt16Array6
  let resource_costs ← readClassArray3 ResearchResourceCost.fromBytes
  let required_tech_count ← readInt16
  let civ ← readInt16
  let full_tech_mode ← readInt16
  let language_dll_name ← readInt32
  let language_dll_description ← readInt32
  let effect_id ← readInt16
  let type ← readInt16
  let icon_id ← readInt16
  let language_dll_help ← readInt32
  let language_dll_tech_tree ← readInt32
  let name ← readDebugStringO
  let repeatable ← readInt8
  let research_location_count ← readInt16
  let research_locations ← readClassArray ResearchLocation.fromBytes research_location_count
  return {
    required_techs := required_techs,
    resource_costs := resource_costs,
    required_tech_count := required_tech_count,
    civ := civ,
    full_tech_mode := full_tech_mode,
    language_dll_name := language_dll_name,
    language_dll_description := language_dll_description,
    effect_id := effect_id,
    type := type,
    icon_id := icon_id,
    language_dll_help := language_dll_help,
    language_dll_tech_tree := language_dll_tech_tree,
    name := name,
    repeatable := repeatable,
    research_locations := research_locations }

/-- `Tech.from_bytes` — `/repo/src/genieutils/tech.py:73-76`, without `assert`. -/
def Tech.fromBytesO : Reader Tech := do
  let version ← getVersion
  if version.ge .VER_88 then Tech.fromBytes88O
  else Tech.fromBytes84O

/-- `Unit.from_bytes84` — `/repo/src/genieutils/unit.py:1142-1331`, without `assert`. -/
def Unit.fromBytes84O : Reader Unit := do
  let vs ← unpackFrom UNIT_FORMAT UNIT_FORMAT_LENGTH
  popInt vs fun type_ vs =>
  popInt vs fun id_ vs =>
  popInt vs fun language_dll_name vs =>
  popInt vs fun language_dll_creation vs =>
  popInt vs fun class_ vs =>
  popInt vs fun standing_graphic_1 vs =>
  popInt vs fun standing_graphic_2 vs =>
  popInt vs fun dying_graphic vs =>
  popInt vs fun undead_graphic vs =>
  popInt vs fun undead_mode vs =>
  popInt vs fun hit_points vs =>
  popFloat vs fun line_of_sight vs =>
  popInt vs fun garrison_capacity vs =>
  popFloat vs fun collision_size_x vs =>
  popFloat vs fun collision_size_y vs =>
  popFloat vs fun collision_size_z vs =>
  popInt vs fun train_sound vs =>
  popInt vs fun damage_sound vs =>
  popInt vs fun dead_unit_id vs =>
  popInt vs fun blood_unit_id vs =>
  popInt vs fun sort_number vs =>
  popInt vs fun can_be_built_on vs =>
  popInt vs fun icon_id vs =>
  popInt vs fun hide_in_editor vs =>
  popInt vs fun old_portrait_pict vs =>
  popInt vs fun enabled vs =>
  popInt vs fun disabled vs =>
  popInt vs fun placement_side_terrain_1 vs =>
  popInt vs fun placement_side_terrain_2 vs =>
  popInt vs fun placement_terrain_1 vs =>
  popInt vs fun placement_terrain_2 vs =>
  popFloat vs fun clearance_size_1 vs =>
  popFloat vs fun clearance_size_2 vs =>
  popInt vs fun hill_mode vs =>
  popInt vs fun fog_visibility vs =>
  popInt vs fun terrain_restriction vs =>
  popInt vs fun fly_mode vs =>
  popInt vs fun resource_capacity vs =>
  popFloat vs fun resource_decay vs =>
  popInt vs fun blast_defense_level vs =>
  popInt vs fun combat_level vs =>
  popInt vs fun interaction_mode vs =>
  popInt vs fun minimap_mode vs =>
  popInt vs fun interface_kind vs =>
  popFloat vs fun multiple_attribute_mode vs =>
  popInt vs fun minimap_color vs =>
  popInt vs fun language_dll_help vs =>
  popInt vs fun language_dll_hotkey_text vs =>
  popInt vs fun hot_key vs =>
  popInt vs fun recyclable vs =>
  popInt vs fun enable_auto_gather vs =>
  popInt vs fun create_doppelganger_on_death vs =>
  popInt vs fun resource_gather_group vs =>
  popInt vs fun occlusion_mode vs =>
  popInt vs fun obstruction_type vs =>
  popInt vs fun obstruction_class vs =>
  popInt vs fun trait vs =>
  popInt vs fun civilization vs =>
  popInt vs fun nothing vs =>
  popInt vs fun selection_effect vs =>
  popInt vs fun editor_selection_colour vs =>
  popFloat vs fun outline_size_x vs =>
  popFloat vs fun outline_size_y vs =>
  popFloat vs fun outline_size_z vs =>
  popInt vs fun scenario_triggers_1 vs =>
  popInt vs fun scenario_triggers_2 vs =>
  popDone vs do
  let resource_storages ← readClassArray3 ResourceStorage.fromBytes
  let damage_graphic_size ← readInt8
  let damage_graphics ← readClassArray DamageGraphic.fromBytes damage_graphic_size
  let selection_sound ← readInt16
  let dying_sound ← readInt16
  let wwise_train_sound_id ← readInt32
  let wwise_damage_sound_id ← readInt32
  let wwise_selection_sound_id ← readInt32
  let wwise_dying_sound_id ← readInt32
  let old_attack_reaction ← readInt8
  let convert_terrain ← readInt8
  let name ← readDebugStringO
  let copy_id ← readInt16
  let base_id ← readInt16
  let speed ← readIf (type_ ≠ UnitType.AoeTrees ∧ type_ ≥ UnitType.Flag) (readFloat)
  let dead_fish ← readIf (type_ ≠ UnitType.AoeTrees ∧ type_ ≥ UnitType.Flag ∧ type_ ≥ UnitType.DeadFish) (readClass DeadFish.fromBytes)
  let bird ← readIf (type_ ≠ UnitType.AoeTrees ∧ type_ ≥ UnitType.Flag ∧ type_ ≥ UnitType.Bird) (readClass Bird.fromBytes)
  let type_50 ← readIf (type_ ≠ UnitType.AoeTrees ∧ type_ ≥ UnitType.Flag ∧ type_ ≥ UnitType.Combatant) (readClass Type50.fromBytes)
  let projectile ← readIf (type_ ≠ UnitType.AoeTrees ∧ type_ ≥ UnitType.Flag ∧ type_ = UnitType.Projectile) (readClass Projectile.fromBytes)
  let creatable ← readIf (type_ ≠ UnitType.AoeTrees ∧ type_ ≥ UnitType.Flag ∧ type_ ≥ UnitType.Creatable) (readClass Creatable.fromBytes)
  let building ← readIf (type_ ≠ UnitType.AoeTrees ∧ type_ ≥ UnitType.Flag ∧ type_ = UnitType.Building) (readClass Building.fromBytes)
  let creatable := creatable.map (Creatable.withHotKey hot_key)
  return {
    type := type_,
    id := id_,
    language_dll_name := language_dll_name,
    language_dll_creation := language_dll_creation,
    class_ := class_,
    standing_graphic := [standing_graphic_1, standing_graphic_2],
    dying_graphic := dying_graphic,
    undead_graphic := undead_graphic,
    undead_mode := undead_mode,
    hit_points := hit_points,
    line_of_sight := line_of_sight,
    garrison_capacity := garrison_capacity,
    collision_size_x := collision_size_x,
    collision_size_y := collision_size_y,
    collision_size_z := collision_size_z,
    train_sound := train_sound,
    damage_sound := damage_sound,
    dead_unit_id := dead_unit_id,
    blood_unit_id := blood_unit_id,
    sort_number := sort_number,
    can_be_built_on := can_be_built_on,
    icon_id := icon_id,
    hide_in_editor := hide_in_editor,
    old_portrait_pict := old_portrait_pict,
    enabled := enabled,
    disabled := disabled,
    placement_side_terrain := [placement_side_terrain_1, placement_side_terrain_2],
    placement_terrain := [placement_terrain_1, placement_terrain_2],
    clearance_size := [clearance_size_1, clearance_size_2],
    hill_mode := hill_mode,
    fog_visibility := fog_visibility,
    terrain_restriction := terrain_restriction,
    fly_mode := fly_mode,
    resource_capacity := resource_capacity,
    resource_decay := resource_decay,
    blast_defense_level := blast_defense_level,
    combat_level := combat_level,
    interaction_mode := interaction_mode,
    minimap_mode := minimap_mode,
    interface_kind := interface_kind,
    multiple_attribute_mode := multiple_attribute_mode,
    minimap_color := minimap_color,
    language_dll_help := language_dll_help,
    language_dll_hotkey_text := language_dll_hotkey_text,
    hot_key := hot_key,
    recyclable := recyclable,
    enable_auto_gather := enable_auto_gather,
    create_doppelganger_on_death := create_doppelganger_on_death,
    resource_gather_group := resource_gather_group,
    occlusion_mode := occlusion_mode,
    obstruction_type := obstruction_type,
    obstruction_class := obstruction_class,
    trait := trait,
    civilization := civilization,
    nothing := nothing,
    selection_effect := selection_effect,
    editor_selection_colour := editor_selection_colour,
    outline_size_x := outline_size_x,
    outline_size_y := outline_size_y,
    outline_size_z := outline_size_z,
    scenario_triggers_1 := scenario_triggers_1,
    scenario_triggers_2 := scenario_triggers_2,
    resource_storages := resource_storages,
    damage_graphics := damage_graphics,
    selection_sound := selection_sound,
    dying_sound := dying_sound,
    wwise_train_sound_id := wwise_train_sound_id,
    wwise_damage_sound_id := wwise_damage_sound_id,
    wwise_selection_sound_id := wwise_selection_sound_id,
    wwise_dying_sound_id := wwise_dying_sound_id,
    old_attack_reaction := old_attack_reaction,
    convert_terrain := convert_terrain,
    name := name,
    copy_id := copy_id,
    base_id := base_id,
    speed := speed,
    dead_fish := dead_fish,
    bird := bird,
    type_50 := type_50,
    projectile := projectile,
    creatable := creatable,
    building := building }

/-- `Unit.from_bytes88` — `/repo/src/genieutils/unit.py:1334-1520`, without `assert`. -/
def Unit.fromBytes88O : Reader Unit := do
  let vs ← unpackFrom UNIT_FORMAT_88 UNIT_FORMAT_LENGTH_88
  popInt vs fun type_ vs =>
  popInt vs fun id_ vs =>
  popInt vs fun language_dll_name vs =>
  popInt vs fun language_dll_creation vs =>
  popInt vs fun class_ vs =>
  popInt vs fun standing_graphic_1 vs =>
  popInt vs fun standing_graphic_2 vs =>
  popInt vs fun dying_graphic vs =>
  popInt vs fun undead_graphic vs =>
  popInt vs fun undead_mode vs =>
  popInt vs fun hit_points vs =>
  popFloat vs fun line_of_sight vs =>
  popInt vs fun garrison_capacity vs =>
  popFloat vs fun collision_size_x vs =>
  popFloat vs fun collision_size_y vs =>
  popFloat vs fun collision_size_z vs =>
  popInt vs fun train_sound vs =>
  popInt vs fun damage_sound vs =>
  popInt vs fun dead_unit_id vs =>
  popInt vs fun blood_unit_id vs =>
  popInt vs fun sort_number vs =>
  popInt vs fun can_be_built_on vs =>
  popInt vs fun icon_id vs =>
  popInt vs fun hide_in_editor vs =>
  popInt vs fun old_portrait_pict vs =>
  popInt vs fun enabled vs =>
  popInt vs fun disabled vs =>
  popInt vs fun placement_side_terrain_1 vs =>
  popInt vs fun placement_side_terrain_2 vs =>
  popInt vs fun placement_terrain_1 vs =>
  popInt vs fun placement_terrain_2 vs =>
  popFloat vs fun clearance_size_1 vs =>
  popFloat vs fun clearance_size_2 vs =>
  popInt vs fun hill_mode vs =>
  popInt vs fun fog_visibility vs =>
  popInt vs fun terrain_restriction vs =>
  popInt vs fun fly_mode vs =>
  popInt vs fun resource_capacity vs =>
  popFloat vs fun resource_decay vs =>
  popInt vs fun blast_defense_level vs =>
  popInt vs fun combat_level vs =>
  popInt vs fun interaction_mode vs =>
  popInt vs fun minimap_mode vs =>
  popInt vs fun interface_kind vs =>
  popFloat vs fun multiple_attribute_mode vs =>
  popInt vs fun minimap_color vs =>
  popInt vs fun language_dll_help vs =>
  popInt vs fun language_dll_hotkey_text vs =>
  popInt vs fun recyclable vs =>
  popInt vs fun enable_auto_gather vs =>
  popInt vs fun create_doppelganger_on_death vs =>
  popInt vs fun resource_gather_group vs =>
  popInt vs fun occlusion_mode vs =>
  popInt vs fun obstruction_type vs =>
  popInt vs fun obstruction_class vs =>
  popInt vs fun trait vs =>
  popInt vs fun civilization vs =>
  popInt vs fun nothing vs =>
  popInt vs fun selection_effect vs =>
  popInt vs fun editor_selection_colour vs =>
  popFloat vs fun outline_size_x vs =>
  popFloat vs fun outline_size_y vs =>
  popFloat vs fun outline_size_z vs =>
  popInt vs fun scenario_triggers_1 vs =>
  popInt vs fun scenario_triggers_2 vs =>
  popDone vs do
  let hot_key : Int := 16000
  let resource_storages ← readClassArray3 ResourceStorage.fromBytes
  let damage_graphic_size ← readInt8
  let damage_graphics ← readClassArray DamageGraphic.fromBytes damage_graphic_size
  let selection_sound ← readInt16
  let dying_sound ← readInt16
  let wwise_train_sound_id ← readInt32
  let wwise_damage_sound_id ← readInt32
  let wwise_selection_sound_id ← readInt32
  let wwise_dying_sound_id ← readInt32
  let old_attack_reaction ← readInt8
  let convert_terrain ← readInt8
  let name ← readDebugStringO
  let copy_id ← readInt16
  let base_id ← readInt16
  let speed ← readIf (type_ ≠ UnitType.AoeTrees ∧ type_ ≥ UnitType.Flag) (readFloat)
  let dead_fish ← readIf (type_ ≠ UnitType.AoeTrees ∧ type_ ≥ UnitType.Flag ∧ type_ ≥ UnitType.DeadFish) (readClass DeadFish.fromBytes)
  let bird ← readIf (type_ ≠ UnitType.AoeTrees ∧ type_ ≥ UnitType.Flag ∧ type_ ≥ UnitType.Bird) (readClass Bird.fromBytes)
  let type_50 ← readIf (type_ ≠ UnitType.AoeTrees ∧ type_ ≥ UnitType.Flag ∧ type_ ≥ UnitType.Combatant) (readClass Type50.fromBytes)
  let projectile ← readIf (type_ ≠ UnitType.AoeTrees ∧ type_ ≥ UnitType.Flag ∧ type_ = UnitType.Projectile) (readClass Projectile.fromBytes)
  let creatable ← readIf (type_ ≠ UnitType.AoeTrees ∧ type_ ≥ UnitType.Flag ∧ type_ ≥ UnitType.Creatable) (readClass Creatable.fromBytes)
  let building ← readIf (type_ ≠ UnitType.AoeTrees ∧ type_ ≥ UnitType.Flag ∧ type_ = UnitType.Building) (readClass Building.fromBytes)
  let hot_key := Creatable.firstHotKey creatable hot_key
  return {
    type := type_,
    id := id_,
    language_dll_name := language_dll_name,
    language_dll_creation := language_dll_creation,
    class_ := class_,
    standing_graphic := [standing_graphic_1, standing_graphic_2],
    dying_graphic := dying_graphic,
    undead_graphic := undead_graphic,
    undead_mode := undead_mode,
    hit_points := hit_points,
    line_of_sight := line_of_sight,
    garrison_capacity := garrison_capacity,
    collision_size_x := collision_size_x,
    collision_size_y := collision_size_y,
    collision_size_z := collision_size_z,
    train_sound := train_sound,
    damage_sound := damage_sound,
    dead_unit_id := dead_unit_id,
    blood_unit_id := blood_unit_id,
    sort_number := sort_number,
    can_be_built_on := can_be_built_on,
    icon_id := icon_id,
    hide_in_editor := hide_in_editor,
    old_portrait_pict := old_portrait_pict,
    enabled := enabled,
    disabled := disabled,
    placement_side_terrain := [placement_side_terrain_1, placement_side_terrain_2],
    placement_terrain := [placement_terrain_1, placement_terrain_2],
    clearance_size := [clearance_size_1, clearance_size_2],
    hill_mode := hill_mode,
    fog_visibility := fog_visibility,
    terrain_restriction := terrain_restriction,
    fly_mode := fly_mode,
    resource_capacity := resource_capacity,
    resource_decay := resource_decay,
    blast_defense_level := blast_defense_level,
    combat_level := combat_level,
    interaction_mode := interaction_mode,
    minimap_mode := minimap_mode,
    interface_kind := interface_kind,
    multiple_attribute_mode := multiple_attribute_mode,
    minimap_color := minimap_color,
    language_dll_help := language_dll_help,
    language_dll_hotkey_text := language_dll_hotkey_text,
    hot_key := hot_key,
    recyclable := recyclable,
    enable_auto_gather := enable_auto_gather,
    create_doppelganger_on_death := create_doppelganger_on_death,
    resource_gather_group := resource_gather_group,
    occlusion_mode := occlusion_mode,
    obstruction_type := obstruction_type,
    obstruction_class := obstruction_class,
    trait := trait,
    civilization := civilization,
    nothing := nothing,
    selection_effect := selection_effect,
    editor_selection_colour := editor_selection_colour,
    outline_size_x := outline_size_x,
    outline_size_y := outline_size_y,
    outline_size_z := outline_size_z,
    scenario_triggers_1 := scenario_triggers_1,
    scenario_triggers_2 := scenario_triggers_2,
    resource_storages := resource_storages,
    damage_graphics := damage_graphics,
    selection_sound := selection_sound,
    dying_sound := dying_sound,
    wwise_train_sound_id := wwise_train_sound_id,
    wwise_damage_sound_id := wwise_damage_sound_id,
    wwise_selection_sound_id := wwise_selection_sound_id,
    wwise_dying_sound_id := wwise_dying_sound_id,
    old_attack_reaction := old_attack_reaction,
    convert_terrain := convert_terrain,
    name := name,
    copy_id := copy_id,
    base_id := base_id,
    speed := speed,
    dead_fish := dead_fish,
    bird := bird,
    type_50 := type_50,
    projectile := projectile,
    creatable := creatable,
    building := building }

/-- `Unit.from_bytes` — `/repo/src/genieutils/unit.py:1136-1139`, without `assert`. -/
def Unit.fromBytesO : Reader Unit := do
  let version ← getVersion
  if version.ge .VER_88 then Unit.fromBytes88O
  else Unit.fromBytes84O

/-- `Civ.from_bytes` — `/repo/src/genieutils/civ.py:18-38`, without `assert`. -/
def Civ.fromBytesO : Reader Civ := do
  let player_type ← readInt8
  let name ← readDebugStringO
  let resources_size ← readInt16
  let tech_tree_id ← readInt16
  let team_bonus_id ← readInt16
  let resources ← readFloatArray resources_size
  let icon_set ← readInt8
  let units_size ← readInt16
  let unit_pointers ← readInt32Array units_size
  let units ← readClassArrayWithPointers Unit.fromBytesO units_size unit_pointers
  return {
    player_type := player_type,
    name := name,
    tech_tree_id := tech_tree_id,
    team_bonus_id := team_bonus_id,
    resources := resources,
    icon_set := icon_set,
    units := units }

/-- `DatFile.from_bytes` — `/repo/src/genieutils/datfile.py:57-114`, without `assert`. -/
def DatFile.fromBytesO : Reader DatFile := do
  let version ← readString 8
  let content_version ← liftPy (Version.ofStr version)
  setVersion content_version
  let terrain_restrictions_size ← readInt16
  let terrains_used_1 ← readInt16
  let float_ptr_terrain_tables ← readInt32Array terrain_restrictions_size
  let terrain_pass_graphic_pointers ← readInt32Array terrain_restrictions_size
  let terrain_restrictions ← readClassArrayWithParam TerrainRestriction.fromBytesWithCount
    terrain_restrictions_size terrains_used_1
  noteLossy (decide (terrain_restrictions = [] ∧ terrains_used_1 ≠ 0))
  let player_colours_size ← readInt16
  let player_colours ← readClassArray PlayerColour.fromBytes player_colours_size
  let sounds_size ← readInt16
  let sounds ← readClassArray Sound.fromBytesO sounds_size
  let graphics_size ← readInt16
  let graphic_pointers ← readInt32Array graphics_size
  let graphics ← readClassArrayWithPointers Graphic.fromBytesO graphics_size graphic_pointers
  let terrain_block ← readClass TerrainBlock.fromBytesO
  let random_maps ← readClass RandomMaps.fromBytes
  let effects_size ← readInt32
  let effects ← readClassArray Effect.fromBytesO effects_size
  let unit_headers_size ← readInt32
  let unit_headers ← readClassArray UnitHeaders.fromBytes unit_headers_size
  let civs_size ← readInt16
  let civs ← readClassArray Civ.fromBytesO civs_size
  let techs_size ← readInt16
  let techs ← readClassArray Tech.fromBytesO techs_size
  let time_slice ← readInt32
  let unit_kill_rate ← readInt32
  let unit_kill_total ← readInt32
  let unit_hit_point_rate ← readInt32
  let unit_hit_point_total ← readInt32
  let razing_kill_rate ← readInt32
  let razing_kill_total ← readInt32
  let tech_tree ← readClass TechTree.fromBytes
  return {
    version := version,
    float_ptr_terrain_tables := float_ptr_terrain_tables,
    terrain_pass_graphic_pointers := terrain_pass_graphic_pointers,
    terrain_restrictions := terrain_restrictions,
    player_colours := player_colours,
    sounds := sounds,
    graphics := graphics,
    terrain_block := terrain_block,
    random_maps := random_maps,
    effects := effects,
    unit_headers := unit_headers,
    civs := civs,
    techs := techs,
    time_slice := time_slice,
    unit_kill_rate := unit_kill_rate,
    unit_kill_total := unit_kill_total,
    unit_hit_point_rate := unit_hit_point_rate,
    unit_hit_point_total := unit_hit_point_total,
    razing_kill_rate := razing_kill_rate,
    razing_kill_total := razing_kill_total,
    tech_tree := tech_tree }

/-- `TerrainRestriction.to_bytes` — `/repo/src/genieutils/terrainrestriction.py:44-49`, without `assert`. -/
def TerrainRestriction.toBytesO (version : Version) (self : TerrainRestriction) : Py Bytes :=
  joinB [
    writeFloatArray self.passable_buildable_dmg_multiplier,
    writeClassArray TerrainPassGraphic.toBytes self.terrain_pass_graphics version]

/-- `RandomMaps.to_bytes` — `/repo/src/genieutils/randommaps.py:298-305`, without `assert`. -/
def RandomMaps.toBytesO (version : Version) (self : RandomMaps) : Py Bytes :=
  joinB [
    writeInt32 self.map_info_1.length (signed := false),
    writeInt32 self.random_maps_ptr,
    writeClassArray MapInfo.toBytes self.map_info_1 version,
    writeClassArray MapInfo.toBytes self.map_info_2 version]

/-- `DatFile.to_bytes` — `/repo/src/genieutils/datfile.py:120-160`, without `assert`. -/
def DatFile.toBytesGivenO (self : DatFile) (_version : Version) : Py Bytes :=
  match Version.ofStr self.version with
  | .error e => .error e
  | .ok version =>
    let terrain_restrictions_size := self.terrain_restrictions.length
    joinB [
      writeString 8 self.version,
      writeInt16 terrain_restrictions_size,
      writeInt16 self.terrains_used,
      writeInt32Array self.float_ptr_terrain_tables,
      writeInt32Array self.terrain_pass_graphic_pointers,
      writeClassArray TerrainRestriction.toBytesO self.terrain_restrictions version,
      writeInt16 self.player_colours.length,
      writeClassArray PlayerColour.toBytes self.player_colours version,
      writeInt16 self.sounds.length,
      writeClassArray Sound.toBytes self.sounds version,
      writeInt16 self.graphics.length,
      writeInt32Array self.graphic_pointers,
      writeClassArrayOpt Graphic.toBytes self.graphics version,
      writeClass TerrainBlock.toBytes self.terrain_block version,
      writeClass RandomMaps.toBytesO self.random_maps version,
      writeInt32 self.effects.length,
      writeClassArray Effect.toBytes self.effects version,
      writeInt32 self.unit_headers.length,
      writeClassArray UnitHeaders.toBytes self.unit_headers version,
      writeInt16 self.civs.length,
      writeClassArray Civ.toBytes self.civs version,
      writeInt16 self.techs.length,
      writeClassArray Tech.toBytes self.techs version,
      writeInt32 self.time_slice,
      writeInt32 self.unit_kill_rate,
      writeInt32 self.unit_kill_total,
      writeInt32 self.unit_hit_point_rate,
      writeInt32 self.unit_hit_point_total,
      writeInt32 self.razing_kill_rate,
      writeInt32 self.razing_kill_total,
      writeClass TechTree.toBytes self.tech_tree version]

/-- `DatFile.to_bytes()` — `/repo/src/genieutils/datfile.py:120-160`, without `assert`. -/
def DatFile.toBytesO (self : DatFile) : Py Bytes := self.toBytesGivenO .UNDEFINED

end Genie
