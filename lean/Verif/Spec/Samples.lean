import Verif.Spec.Classes
/-!
# Sample objects

Concrete objects of every record class and whole sample files, for any version.  They are used only in
`example`s, to show that the hypotheses of the theorems are met by non-trivial data.
(`default` fills every field with `0`, `0.0`, the empty string or the empty list.)
-/

namespace Genie.Sample

/-- `2.5` -/
def f25 : PyFloat := ⟨0x4004000000000000#64⟩
/-- a list of `n` zeros ending with 7 -/
def ints (n : Nat) : List Int := List.replicate (n - 1) 0 ++ [7]

def effectCommand : EffectCommand := { (default : EffectCommand) with type := 4, a := -1, d := f25 }
def effect : Effect := { name := lit "Loom", effect_commands := [effectCommand, default] }
def soundItem : SoundItem := { (default : SoundItem) with filename := lit "bell.wav", resource_id := 5000 }
def sound : Sound := { (default : Sound) with id := 3, items := [soundItem, default] }
def playerColour : PlayerColour := { (default : PlayerColour) with id := 1, minimap_color := 255 }
def graphicDelta : GraphicDelta := { (default : GraphicDelta) with graphic_id := -1 }
def angleSound : GraphicAngleSound := { (default : GraphicAngleSound) with sound_id_2 := 12 }
def graphic : Graphic := { (default : Graphic) with
  name := lit "KNIGHT", coordinates := [1, 2, -3, 4], angle_sounds_used := 1, angle_count := 2,
  deltas := [graphicDelta], angle_sounds := [angleSound, default] }
def passGraphic : TerrainPassGraphic := { (default : TerrainPassGraphic) with walk_sprite_rate := -1 }
def terrainRestriction : TerrainRestriction :=
  { passable_buildable_dmg_multiplier := [f25, default], terrain_pass_graphics := [passGraphic, default] }
def terrain : Terrain := { (default : Terrain) with
  name := lit "Grass", colors := ints 3, cliff_colors := ints 2, frame_data := List.replicate 19 default,
  terrain_dimensions := ints 2, terrain_unit_masked_density := ints 30, terrain_unit_id := ints 30,
  terrain_unit_density := ints 30, terrain_unit_centering := ints 30 }
def terrainBlock : TerrainBlock := { (default : TerrainBlock) with
  virtual_function_ptr := 4000000000, tile_sizes := List.replicate 19 default,
  terrains := List.replicate 200 terrain }
def mapLand : MapLand := { (default : MapLand) with terrain := 4000000000 }
def mapInfo : MapInfo := { (default : MapInfo) with
  map_id := 9, map_lands_size := 2, map_lands := [mapLand, default], map_units_size := 1, map_units := [default] }
def randomMaps : RandomMaps := { random_maps_ptr := -5, map_info_1 := [mapInfo, default], map_info_2 := [default, mapInfo] }
def researchCost : ResearchResourceCost := { type := 3, amount := 50, flag := 1 }
def researchLocation : ResearchLocation := { location_id := 109, research_time := 25, button_id := 2, hot_key_id := -1 }
def tech : Tech := { (default : Tech) with
  name := lit "Loom", required_techs := ints 6, resource_costs := [researchCost, default, default],
  research_locations := [researchLocation] }
def common : Common := { slots_used := 2, unit_research := ints 10, mode := ints 10 }
def techTreeAge : TechTreeAge := { (default : TechTreeAge) with
  buildings := [12, 68], common := common, buildings_per_zone := ints 10, group_length_per_zone := ints 10 }
def buildingConnection : BuildingConnection := { (default : BuildingConnection) with
  units := [4], common := common, units_techs_total := ints 5, units_techs_first := ints 5 }
def unitConnection : UnitConnection := { (default : UnitConnection) with units := [4, 24], common := common }
def researchConnection : ResearchConnection := { (default : ResearchConnection) with techs := [22], common := common }
def techTree : TechTree := { (default : TechTree) with
  tech_tree_ages := [techTreeAge], building_connections := [buildingConnection, buildingConnection],
  unit_connections := [unitConnection], research_connections := [researchConnection] }
def resourceStorage : ResourceStorage := { type := 4, amount := f25, flag := -1 }
def damageGraphic : DamageGraphic := { graphic_id := 77, damage_percent := 50, apply_mode := 2 }
def deadFish : DeadFish := { (default : DeadFish) with walking_graphic := 41, turn_radius := f25 }
/-- `enabled` is stored only since 8.8. -/
def task (v : Version) : Task := { (default : Task) with
  action_type := 105, work_value_1 := f25, enabled := if 88 ≤ v.num then 1 else -1 }
/-- Three drop sites, the number all versions can store. -/
def bird (v : Version) : Bird := { (default : Bird) with
  drop_sites := [109, -1, 7], tasks := [task v, task v] }
def attack : AttackOrArmor := { class_ := 4, amount := 10 }
/-- The fields introduced by 8.4 have their default values before. -/
def type50 (v : Version) : Type50 := { (default : Type50) with
  attacks := [attack, default], armours := [attack], graphic_displacement := [f25, default, default],
  damage_reflection := if 84 ≤ v.num then f25 else PyFloat.zero
  friendly_fire_damage := if 84 ≤ v.num then f25 else PyFloat.one
  interrupt_frame := if 84 ≤ v.num then 5 else -1
  garrison_firepower := if 84 ≤ v.num then f25 else PyFloat.zero
  attack_graphic_2 := if 84 ≤ v.num then 6 else -1 }
def projectile : Projectile := { (default : Projectile) with smart_mode := 1, projectile_arc := f25 }
def resourceCost : ResourceCost := { type := 0, amount := 60, flag := 1 }
def trainLocation (hot_key_id : Int) : TrainLocation :=
  { train_time := 30, unit_id := 101, button_id := 2, hot_key_id := hot_key_id }
/-- Two train locations since 8.8, one before; the fields introduced by 8.4 have their defaults before. -/
def creatable (v : Version) (hot_key : Int) : Creatable := { (default : Creatable) with
  resource_costs := [resourceCost, default, default],
  train_locations := if 88 ≤ v.num then [trainLocation hot_key, trainLocation 5] else [trainLocation hot_key],
  max_charge := f25, projectile_spawning_area := [f25, default, f25],
  idle_attack_graphic := if 84 ≤ v.num then 3 else -1
  charge_projectile_unit := if 84 ≤ v.num then 4 else -1
  button_icon_id := if 84 ≤ v.num then 5 else -1
  button_short_tooltip_id := if 84 ≤ v.num then 6 else -1
  button_extended_tooltip_id := if 84 ≤ v.num then 7 else -1
  button_hotkey_action := if 84 ≤ v.num then 8 else -1 }
def annex : BuildingAnnex := { unit_id := 12, misplacement_x := f25, misplacement_y := default }
def building : Building := { (default : Building) with
  annexes := [annex, default, default, default], looting_table := [1, 2, 3, 4, 5, -6] }

/-- A unit of the given type without the optional parts. -/
def unitBase (type hot_key : Int) : Unit := { (default : Unit) with
  type := type, id := 4, name := lit "ARCHR", standing_graphic := [633, -1], placement_side_terrain := [-1, -1],
  placement_terrain := [-1, -1], clearance_size := [f25, default], hot_key := hot_key,
  resource_storages := [resourceStorage, default, default], damage_graphics := [damageGraphic, default] }
/-- type 10: no optional part -/
def eyeCandy : Unit := unitBase 10 16000
/-- type 60 -/
def missile (v : Version) : Unit := { unitBase 60 16000 with
  speed := some f25, dead_fish := some deadFish, bird := some (bird v), type_50 := some (type50 v),
  projectile := some projectile }
/-- type 70 -/
def archer (v : Version) : Unit := { unitBase 70 16001 with
  speed := some f25, dead_fish := some deadFish, bird := some (bird v), type_50 := some (type50 v),
  creatable := some (creatable v 16001) }
/-- type 80 -/
def house (v : Version) : Unit := { unitBase 80 16002 with
  speed := some f25, dead_fish := some deadFish, bird := some (bird v), type_50 := some (type50 v),
  creatable := some (creatable v 16002), building := some building }
def unitHeaders (v : Version) : UnitHeaders := { exists_ := 1, task_list := some [task v] }
/-- Empty unit slots in the middle and at the end. -/
def civ (v : Version) : Civ := { (default : Civ) with
  name := lit "Britons", resources := [f25, default],
  units := [some eyeCandy, none, some (missile v), some (archer v), some (house v), none] }

/-- A file. -/
def datFile (v : Version) : DatFile := { (default : DatFile) with
  version := v.value, float_ptr_terrain_tables := [1, 2], terrain_pass_graphic_pointers := [0, -1],
  terrain_restrictions := [terrainRestriction, terrainRestriction],
  player_colours := [playerColour], sounds := [sound, default], graphics := [none, some graphic, none],
  terrain_block := terrainBlock, random_maps := randomMaps, effects := [effect],
  unit_headers := [unitHeaders v, { exists_ := 0, task_list := none }], civs := [civ v, civ v], techs := [tech, tech],
  time_slice := 1000, tech_tree := techTree }

/-- The sample object of each class. -/
def ofClass (v : Version) : (c : RecordClass) → c.Obj
  | .EffectCommand => effectCommand | .Effect => effect | .SoundItem => soundItem | .Sound => sound
  | .PlayerColour => playerColour | .GraphicDelta => graphicDelta | .GraphicAngleSound => angleSound
  | .Graphic => graphic | .TerrainPassGraphic => passGraphic | .FrameData => default | .Terrain => terrain
  | .TileSize => default | .TerrainBlock => terrainBlock | .MapUnit => default | .MapTerrain => default
  | .MapLand => mapLand | .MapElevation => default | .MapInfo => mapInfo | .RandomMaps => randomMaps
  | .ResearchResourceCost => researchCost | .ResearchLocation => researchLocation | .Tech => tech
  | .Common => common | .TechTreeAge => techTreeAge | .BuildingConnection => buildingConnection
  | .UnitConnection => unitConnection | .ResearchConnection => researchConnection | .TechTree => techTree
  | .ResourceStorage => resourceStorage | .DamageGraphic => damageGraphic | .DeadFish => deadFish
  | .Task => task v | .Bird => bird v | .AttackOrArmor => attack | .Type50 => type50 v
  | .Projectile => projectile | .ResourceCost => resourceCost | .TrainLocation => trainLocation 16000
  | .Creatable => creatable v 16000 | .BuildingAnnex => annex | .Building => building | .Unit => house v
  | .UnitHeaders => unitHeaders v | .Civ => civ v
  | .TerrainRestriction n =>
    { passable_buildable_dmg_multiplier := List.replicate n f25, terrain_pass_graphics := List.replicate n passGraphic }

end Genie.Sample
