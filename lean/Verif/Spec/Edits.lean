import Verif.Spec.ClassLayout
/-!
# Places in a file, and the fields of the records

What a user edits: a record somewhere in a file (`data.techs[22].resource_costs[0]`), and in it a field
(`.amount = 69`) or a list (generated by `tools/gen_edits.py`).

In Python, an edit changes the objects in place.  Here it gives a new file: a record is replaced in the record that contains it.
This is the same, provided that no object occurs in two places; the readers build a new object for every place.
-/

namespace Genie
open Layout

/-- The file, or a record in it. -/
inductive Node where
  | file
  | record (c : RecordClass)

namespace Node

/-- The objects. -/
abbrev Obj : Node → Type
  | file => DatFile
  | record c => c.Obj

/-- The items. -/
def layout : (n : Node) → Version → n.Obj → List Item
  | file => DatFile.layoutAt
  | record c => c.layout

/-- `to_bytes` (a file uses its own version). -/
def toBytes : (n : Node) → Version → n.Obj → Py Bytes
  | file => fun _ d => DatFile.toBytes d
  | record c => c.toBytes

/-- Well-formed, as part of a file of version `v`.  (A `Creatable` in a unit has the unit's hot key, before 8.8.) -/
def WF (v : Version) : (n : Node) → n.Obj → Prop
  | file => DatFile.WFAt v
  | record .Creatable => fun x => ∃ hot_key, Creatable.WFWith v hot_key x
  | record c => c.WF v

end Node

/-- The record at place `i` of a list with empty slots. -/
def slotAt (l : List (Option α)) (i : Nat) : Option α := l[i]?.join

/-- A record directly inside another one (or inside the file). -/
inductive Slot : Node → Node → Type where
  | Effect_effect_commands (i : Nat) : Slot (.record .Effect) (.record .EffectCommand)
  | Sound_items (i : Nat) : Slot (.record .Sound) (.record .SoundItem)
  | Graphic_deltas (i : Nat) : Slot (.record .Graphic) (.record .GraphicDelta)
  | Graphic_angle_sounds (i : Nat) : Slot (.record .Graphic) (.record .GraphicAngleSound)
  | Terrain_frame_data (i : Nat) : Slot (.record .Terrain) (.record .FrameData)
  | TerrainBlock_tile_sizes (i : Nat) : Slot (.record .TerrainBlock) (.record .TileSize)
  | TerrainBlock_terrains (i : Nat) : Slot (.record .TerrainBlock) (.record .Terrain)
  | MapInfo_map_lands (i : Nat) : Slot (.record .MapInfo) (.record .MapLand)
  | MapInfo_map_terrains (i : Nat) : Slot (.record .MapInfo) (.record .MapTerrain)
  | MapInfo_map_units (i : Nat) : Slot (.record .MapInfo) (.record .MapUnit)
  | MapInfo_map_elevations (i : Nat) : Slot (.record .MapInfo) (.record .MapElevation)
  | RandomMaps_map_info_1 (i : Nat) : Slot (.record .RandomMaps) (.record .MapInfo)
  | RandomMaps_map_info_2 (i : Nat) : Slot (.record .RandomMaps) (.record .MapInfo)
  | Tech_resource_costs (i : Nat) : Slot (.record .Tech) (.record .ResearchResourceCost)
  | Tech_research_locations (i : Nat) : Slot (.record .Tech) (.record .ResearchLocation)
  | TechTreeAge_common : Slot (.record .TechTreeAge) (.record .Common)
  | BuildingConnection_common : Slot (.record .BuildingConnection) (.record .Common)
  | UnitConnection_common : Slot (.record .UnitConnection) (.record .Common)
  | ResearchConnection_common : Slot (.record .ResearchConnection) (.record .Common)
  | TechTree_tech_tree_ages (i : Nat) : Slot (.record .TechTree) (.record .TechTreeAge)
  | TechTree_building_connections (i : Nat) : Slot (.record .TechTree) (.record .BuildingConnection)
  | TechTree_unit_connections (i : Nat) : Slot (.record .TechTree) (.record .UnitConnection)
  | TechTree_research_connections (i : Nat) : Slot (.record .TechTree) (.record .ResearchConnection)
  | Bird_tasks (i : Nat) : Slot (.record .Bird) (.record .Task)
  | Type50_attacks (i : Nat) : Slot (.record .Type50) (.record .AttackOrArmor)
  | Type50_armours (i : Nat) : Slot (.record .Type50) (.record .AttackOrArmor)
  | Creatable_resource_costs (i : Nat) : Slot (.record .Creatable) (.record .ResourceCost)
  | Creatable_train_locations (i : Nat) : Slot (.record .Creatable) (.record .TrainLocation)
  | Building_annexes (i : Nat) : Slot (.record .Building) (.record .BuildingAnnex)
  | Unit_resource_storages (i : Nat) : Slot (.record .Unit) (.record .ResourceStorage)
  | Unit_damage_graphics (i : Nat) : Slot (.record .Unit) (.record .DamageGraphic)
  | Unit_dead_fish : Slot (.record .Unit) (.record .DeadFish)
  | Unit_bird : Slot (.record .Unit) (.record .Bird)
  | Unit_type_50 : Slot (.record .Unit) (.record .Type50)
  | Unit_projectile : Slot (.record .Unit) (.record .Projectile)
  | Unit_creatable : Slot (.record .Unit) (.record .Creatable)
  | Unit_building : Slot (.record .Unit) (.record .Building)
  | UnitHeaders_task_list (i : Nat) : Slot (.record .UnitHeaders) (.record .Task)
  | Civ_units (i : Nat) : Slot (.record .Civ) (.record .Unit)
  | TerrainRestriction_terrain_pass_graphics (n i : Nat) : Slot (.record (.TerrainRestriction n)) (.record .TerrainPassGraphic)
  | DatFile_terrain_restrictions (n i : Nat) : Slot .file (.record (.TerrainRestriction n))
  | DatFile_player_colours (i : Nat) : Slot .file (.record .PlayerColour)
  | DatFile_sounds (i : Nat) : Slot .file (.record .Sound)
  | DatFile_graphics (i : Nat) : Slot .file (.record .Graphic)
  | DatFile_terrain_block : Slot .file (.record .TerrainBlock)
  | DatFile_random_maps : Slot .file (.record .RandomMaps)
  | DatFile_effects (i : Nat) : Slot .file (.record .Effect)
  | DatFile_unit_headers (i : Nat) : Slot .file (.record .UnitHeaders)
  | DatFile_civs (i : Nat) : Slot .file (.record .Civ)
  | DatFile_techs (i : Nat) : Slot .file (.record .Tech)
  | DatFile_tech_tree : Slot .file (.record .TechTree)

namespace Slot

/-- The record that is there, if any. -/
def get : Slot a b → a.Obj → Option b.Obj
  | Effect_effect_commands i, (x : Genie.Effect) => x.effect_commands[i]?
  | Sound_items i, (x : Genie.Sound) => x.items[i]?
  | Graphic_deltas i, (x : Genie.Graphic) => x.deltas[i]?
  | Graphic_angle_sounds i, (x : Genie.Graphic) => x.angle_sounds[i]?
  | Terrain_frame_data i, (x : Genie.Terrain) => x.frame_data[i]?
  | TerrainBlock_tile_sizes i, (x : Genie.TerrainBlock) => x.tile_sizes[i]?
  | TerrainBlock_terrains i, (x : Genie.TerrainBlock) => x.terrains[i]?
  | MapInfo_map_lands i, (x : Genie.MapInfo) => x.map_lands[i]?
  | MapInfo_map_terrains i, (x : Genie.MapInfo) => x.map_terrains[i]?
  | MapInfo_map_units i, (x : Genie.MapInfo) => x.map_units[i]?
  | MapInfo_map_elevations i, (x : Genie.MapInfo) => x.map_elevations[i]?
  | RandomMaps_map_info_1 i, (x : Genie.RandomMaps) => x.map_info_1[i]?
  | RandomMaps_map_info_2 i, (x : Genie.RandomMaps) => x.map_info_2[i]?
  | Tech_resource_costs i, (x : Genie.Tech) => x.resource_costs[i]?
  | Tech_research_locations i, (x : Genie.Tech) => x.research_locations[i]?
  | TechTreeAge_common, (x : Genie.TechTreeAge) => some x.common
  | BuildingConnection_common, (x : Genie.BuildingConnection) => some x.common
  | UnitConnection_common, (x : Genie.UnitConnection) => some x.common
  | ResearchConnection_common, (x : Genie.ResearchConnection) => some x.common
  | TechTree_tech_tree_ages i, (x : Genie.TechTree) => x.tech_tree_ages[i]?
  | TechTree_building_connections i, (x : Genie.TechTree) => x.building_connections[i]?
  | TechTree_unit_connections i, (x : Genie.TechTree) => x.unit_connections[i]?
  | TechTree_research_connections i, (x : Genie.TechTree) => x.research_connections[i]?
  | Bird_tasks i, (x : Genie.Bird) => x.tasks[i]?
  | Type50_attacks i, (x : Genie.Type50) => x.attacks[i]?
  | Type50_armours i, (x : Genie.Type50) => x.armours[i]?
  | Creatable_resource_costs i, (x : Genie.Creatable) => x.resource_costs[i]?
  | Creatable_train_locations i, (x : Genie.Creatable) => x.train_locations[i]?
  | Building_annexes i, (x : Genie.Building) => x.annexes[i]?
  | Unit_resource_storages i, (x : Genie.Unit) => x.resource_storages[i]?
  | Unit_damage_graphics i, (x : Genie.Unit) => x.damage_graphics[i]?
  | Unit_dead_fish, (x : Genie.Unit) => x.dead_fish
  | Unit_bird, (x : Genie.Unit) => x.bird
  | Unit_type_50, (x : Genie.Unit) => x.type_50
  | Unit_projectile, (x : Genie.Unit) => x.projectile
  | Unit_creatable, (x : Genie.Unit) => x.creatable
  | Unit_building, (x : Genie.Unit) => x.building
  | UnitHeaders_task_list i, (x : Genie.UnitHeaders) => x.task_list.bind (·[i]?)
  | Civ_units i, (x : Genie.Civ) => slotAt x.units i
  | TerrainRestriction_terrain_pass_graphics _ i, (x : Genie.TerrainRestriction) => x.terrain_pass_graphics[i]?
  | DatFile_terrain_restrictions n i, (x : Genie.DatFile) => x.terrain_restrictions[i]?.filter (·.passable_buildable_dmg_multiplier.length = n)
  | DatFile_player_colours i, (x : Genie.DatFile) => x.player_colours[i]?
  | DatFile_sounds i, (x : Genie.DatFile) => x.sounds[i]?
  | DatFile_graphics i, (x : Genie.DatFile) => slotAt x.graphics i
  | DatFile_terrain_block, (x : Genie.DatFile) => some x.terrain_block
  | DatFile_random_maps, (x : Genie.DatFile) => some x.random_maps
  | DatFile_effects i, (x : Genie.DatFile) => x.effects[i]?
  | DatFile_unit_headers i, (x : Genie.DatFile) => x.unit_headers[i]?
  | DatFile_civs i, (x : Genie.DatFile) => x.civs[i]?
  | DatFile_techs i, (x : Genie.DatFile) => x.techs[i]?
  | DatFile_tech_tree, (x : Genie.DatFile) => some x.tech_tree

/-- Put another record there. -/
def set : Slot a b → a.Obj → b.Obj → a.Obj
  | Effect_effect_commands i, (x : Genie.Effect), (y : Genie.EffectCommand) => { x with effect_commands := x.effect_commands.set i y }
  | Sound_items i, (x : Genie.Sound), (y : Genie.SoundItem) => { x with items := x.items.set i y }
  | Graphic_deltas i, (x : Genie.Graphic), (y : Genie.GraphicDelta) => { x with deltas := x.deltas.set i y }
  | Graphic_angle_sounds i, (x : Genie.Graphic), (y : Genie.GraphicAngleSound) => { x with angle_sounds := x.angle_sounds.set i y }
  | Terrain_frame_data i, (x : Genie.Terrain), (y : Genie.FrameData) => { x with frame_data := x.frame_data.set i y }
  | TerrainBlock_tile_sizes i, (x : Genie.TerrainBlock), (y : Genie.TileSize) => { x with tile_sizes := x.tile_sizes.set i y }
  | TerrainBlock_terrains i, (x : Genie.TerrainBlock), (y : Genie.Terrain) => { x with terrains := x.terrains.set i y }
  | MapInfo_map_lands i, (x : Genie.MapInfo), (y : Genie.MapLand) => { x with map_lands := x.map_lands.set i y }
  | MapInfo_map_terrains i, (x : Genie.MapInfo), (y : Genie.MapTerrain) => { x with map_terrains := x.map_terrains.set i y }
  | MapInfo_map_units i, (x : Genie.MapInfo), (y : Genie.MapUnit) => { x with map_units := x.map_units.set i y }
  | MapInfo_map_elevations i, (x : Genie.MapInfo), (y : Genie.MapElevation) => { x with map_elevations := x.map_elevations.set i y }
  | RandomMaps_map_info_1 i, (x : Genie.RandomMaps), (y : Genie.MapInfo) => { x with map_info_1 := x.map_info_1.set i y }
  | RandomMaps_map_info_2 i, (x : Genie.RandomMaps), (y : Genie.MapInfo) => { x with map_info_2 := x.map_info_2.set i y }
  | Tech_resource_costs i, (x : Genie.Tech), (y : Genie.ResearchResourceCost) => { x with resource_costs := x.resource_costs.set i y }
  | Tech_research_locations i, (x : Genie.Tech), (y : Genie.ResearchLocation) => { x with research_locations := x.research_locations.set i y }
  | TechTreeAge_common, (x : Genie.TechTreeAge), (y : Genie.Common) => { x with common := y }
  | BuildingConnection_common, (x : Genie.BuildingConnection), (y : Genie.Common) => { x with common := y }
  | UnitConnection_common, (x : Genie.UnitConnection), (y : Genie.Common) => { x with common := y }
  | ResearchConnection_common, (x : Genie.ResearchConnection), (y : Genie.Common) => { x with common := y }
  | TechTree_tech_tree_ages i, (x : Genie.TechTree), (y : Genie.TechTreeAge) => { x with tech_tree_ages := x.tech_tree_ages.set i y }
  | TechTree_building_connections i, (x : Genie.TechTree), (y : Genie.BuildingConnection) => { x with building_connections := x.building_connections.set i y }
  | TechTree_unit_connections i, (x : Genie.TechTree), (y : Genie.UnitConnection) => { x with unit_connections := x.unit_connections.set i y }
  | TechTree_research_connections i, (x : Genie.TechTree), (y : Genie.ResearchConnection) => { x with research_connections := x.research_connections.set i y }
  | Bird_tasks i, (x : Genie.Bird), (y : Genie.Task) => { x with tasks := x.tasks.set i y }
  | Type50_attacks i, (x : Genie.Type50), (y : Genie.AttackOrArmor) => { x with attacks := x.attacks.set i y }
  | Type50_armours i, (x : Genie.Type50), (y : Genie.AttackOrArmor) => { x with armours := x.armours.set i y }
  | Creatable_resource_costs i, (x : Genie.Creatable), (y : Genie.ResourceCost) => { x with resource_costs := x.resource_costs.set i y }
  | Creatable_train_locations i, (x : Genie.Creatable), (y : Genie.TrainLocation) => { x with train_locations := x.train_locations.set i y }
  | Building_annexes i, (x : Genie.Building), (y : Genie.BuildingAnnex) => { x with annexes := x.annexes.set i y }
  | Unit_resource_storages i, (x : Genie.Unit), (y : Genie.ResourceStorage) => { x with resource_storages := x.resource_storages.set i y }
  | Unit_damage_graphics i, (x : Genie.Unit), (y : Genie.DamageGraphic) => { x with damage_graphics := x.damage_graphics.set i y }
  | Unit_dead_fish, (x : Genie.Unit), (y : Genie.DeadFish) => { x with dead_fish := some y }
  | Unit_bird, (x : Genie.Unit), (y : Genie.Bird) => { x with bird := some y }
  | Unit_type_50, (x : Genie.Unit), (y : Genie.Type50) => { x with type_50 := some y }
  | Unit_projectile, (x : Genie.Unit), (y : Genie.Projectile) => { x with projectile := some y }
  | Unit_creatable, (x : Genie.Unit), (y : Genie.Creatable) => { x with creatable := some y }
  | Unit_building, (x : Genie.Unit), (y : Genie.Building) => { x with building := some y }
  | UnitHeaders_task_list i, (x : Genie.UnitHeaders), (y : Genie.Task) => { x with task_list := x.task_list.map (·.set i y) }
  | Civ_units i, (x : Genie.Civ), (y : Genie.Unit) => { x with units := x.units.set i (some y) }
  | TerrainRestriction_terrain_pass_graphics _ i, (x : Genie.TerrainRestriction), (y : Genie.TerrainPassGraphic) => { x with terrain_pass_graphics := x.terrain_pass_graphics.set i y }
  | DatFile_terrain_restrictions _ i, (x : Genie.DatFile), (y : Genie.TerrainRestriction) => { x with terrain_restrictions := x.terrain_restrictions.set i y }
  | DatFile_player_colours i, (x : Genie.DatFile), (y : Genie.PlayerColour) => { x with player_colours := x.player_colours.set i y }
  | DatFile_sounds i, (x : Genie.DatFile), (y : Genie.Sound) => { x with sounds := x.sounds.set i y }
  | DatFile_graphics i, (x : Genie.DatFile), (y : Genie.Graphic) => { x with graphics := x.graphics.set i (some y) }
  | DatFile_terrain_block, (x : Genie.DatFile), (y : Genie.TerrainBlock) => { x with terrain_block := y }
  | DatFile_random_maps, (x : Genie.DatFile), (y : Genie.RandomMaps) => { x with random_maps := y }
  | DatFile_effects i, (x : Genie.DatFile), (y : Genie.Effect) => { x with effects := x.effects.set i y }
  | DatFile_unit_headers i, (x : Genie.DatFile), (y : Genie.UnitHeaders) => { x with unit_headers := x.unit_headers.set i y }
  | DatFile_civs i, (x : Genie.DatFile), (y : Genie.Civ) => { x with civs := x.civs.set i y }
  | DatFile_techs i, (x : Genie.DatFile), (y : Genie.Tech) => { x with techs := x.techs.set i y }
  | DatFile_tech_tree, (x : Genie.DatFile), (y : Genie.TechTree) => { x with tech_tree := y }

/-- The record is stored in one piece: before 8.8 the single research location of a tech, and the single train location of a
unit, are not. -/
def Stored (v : Version) : Slot a b → Prop
  | Tech_research_locations _ => 88 ≤ v.num
  | Creatable_train_locations _ => 88 ≤ v.num
  | _ => True

/-- The new record does not affect anything outside itself.  The only cases where it could: a unit has the hot key of its first
train location, and a file has the number of terrains of its first terrain restriction. -/
def Keeps : Slot a b → a.Obj → b.Obj → Prop
  | Unit_creatable, (x : Genie.Unit), (y : Genie.Creatable) =>
    y.train_locations.head?.map (·.hot_key_id) = (x.creatable.bind (·.train_locations.head?)).map (·.hot_key_id)
  | DatFile_terrain_restrictions n _, _, (y : Genie.TerrainRestriction) => y.passable_buildable_dmg_multiplier.length = n
  | _, _, _ => True

end Slot

/-- A place: step by step from a record (or the file) to a record in it. -/
inductive Place : Node → Node → Type where
  | here : Place a a
  | step (s : Slot a b) (p : Place b c) : Place a c

namespace Place

/-- The record at the place. -/
def get : Place a b → a.Obj → Option b.Obj
  | here, x => some x
  | step s p, x => (s.get x).bind p.get

/-- Put another record there. -/
def set : Place a b → a.Obj → b.Obj → a.Obj
  | here, _, y => y
  | step s p, x, y => match s.get x with
    | none => x
    | some m => s.set x (p.set m y)

/-- Every record on the way is stored in one piece. -/
def Stored (v : Version) : Place a b → Prop
  | here => True
  | step s p => s.Stored v ∧ p.Stored v

/-- The new record does not affect anything outside the place. -/
def Keeps : Place a b → a.Obj → b.Obj → Prop
  | here, _, _ => True
  | step s p, x, y => match s.get x with
    | none => False
    | some m => p.Keeps m y ∧ s.Keeps x (p.set m y)

end Place

/-- The new record agrees with the old one in what its surroundings depend on: the hot key of a unit's first train location is
also that of the unit, and the number of terrains of the first terrain restriction is also stored in the file itself. -/
def Node.Kept : (n : Node) → n.Obj → n.Obj → Prop
  | .record .TrainLocation, (x : Genie.TrainLocation), (y : Genie.TrainLocation) => y.hot_key_id = x.hot_key_id
  | .record .Creatable, (x : Genie.Creatable), (y : Genie.Creatable) =>
    y.train_locations.head?.map (·.hot_key_id) = x.train_locations.head?.map (·.hot_key_id)
  | .record (.TerrainRestriction _), (x : Genie.TerrainRestriction), (y : Genie.TerrainRestriction) =>
    y.passable_buildable_dmg_multiplier.length = x.passable_buildable_dmg_multiplier.length
  | _, _, _ => True

/-- A numeric field of fixed size, with its name. -/
structure IntField (α : Type) where
  name : String
  width : Nat
  signed : Bool
  get : α → Int
  set : α → Int → α

/-- A float field (which may be absent). -/
structure FloatField (α : Type) where
  name : String
  get : α → Option PyFloat
  set : α → PyFloat → α

/-- A text field. -/
structure TextField (α : Type) where
  name : String
  get : α → PyStr
  set : α → PyStr → α

/-- A list: its elements, what is written for each of them, and which can be stored. -/
structure ListField (α : Type) where
  name : String
  Elem : Type
  get : α → List Elem
  set : α → List Elem → α
  items : Elem → List Item
  ok : Elem → Prop

namespace Node

/-- The integer fields that a file of version `v` stores and that do not decide about anything else (such as a unit's type,
which decides which parts it has). -/
def intFields (v : Version) : (n : Node) → List (IntField n.Obj)
  | .record .EffectCommand => [
      ⟨"type", 1, false, fun (x : Genie.EffectCommand) => x.type, fun x y => { x with type := y }⟩,
      ⟨"a", 2, true, fun (x : Genie.EffectCommand) => x.a, fun x y => { x with a := y }⟩,
      ⟨"b", 2, true, fun (x : Genie.EffectCommand) => x.b, fun x y => { x with b := y }⟩,
      ⟨"c", 2, true, fun (x : Genie.EffectCommand) => x.c, fun x y => { x with c := y }⟩]
  | .record .SoundItem => [
      ⟨"resource_id", 4, true, fun (x : Genie.SoundItem) => x.resource_id, fun x y => { x with resource_id := y }⟩,
      ⟨"probability", 2, true, fun (x : Genie.SoundItem) => x.probability, fun x y => { x with probability := y }⟩,
      ⟨"civilization", 2, true, fun (x : Genie.SoundItem) => x.civilization, fun x y => { x with civilization := y }⟩,
      ⟨"icon_set", 2, true, fun (x : Genie.SoundItem) => x.icon_set, fun x y => { x with icon_set := y }⟩]
  | .record .Sound => [
      ⟨"id", 2, true, fun (x : Genie.Sound) => x.id, fun x y => { x with id := y }⟩,
      ⟨"play_delay", 2, true, fun (x : Genie.Sound) => x.play_delay, fun x y => { x with play_delay := y }⟩,
      ⟨"cache_time", 4, true, fun (x : Genie.Sound) => x.cache_time, fun x y => { x with cache_time := y }⟩,
      ⟨"total_probability", 2, true, fun (x : Genie.Sound) => x.total_probability, fun x y => { x with total_probability := y }⟩]
  | .record .PlayerColour => [
      ⟨"id", 4, true, fun (x : Genie.PlayerColour) => x.id, fun x y => { x with id := y }⟩,
      ⟨"player_color_base", 4, true, fun (x : Genie.PlayerColour) => x.player_color_base, fun x y => { x with player_color_base := y }⟩,
      ⟨"unit_outline_color", 4, true, fun (x : Genie.PlayerColour) => x.unit_outline_color, fun x y => { x with unit_outline_color := y }⟩,
      ⟨"unit_selection_color_1", 4, true, fun (x : Genie.PlayerColour) => x.unit_selection_color_1, fun x y => { x with unit_selection_color_1 := y }⟩,
      ⟨"unit_selection_color_2", 4, true, fun (x : Genie.PlayerColour) => x.unit_selection_color_2, fun x y => { x with unit_selection_color_2 := y }⟩,
      ⟨"minimap_color", 4, true, fun (x : Genie.PlayerColour) => x.minimap_color, fun x y => { x with minimap_color := y }⟩,
      ⟨"minimap_color_2", 4, true, fun (x : Genie.PlayerColour) => x.minimap_color_2, fun x y => { x with minimap_color_2 := y }⟩,
      ⟨"minimap_color_3", 4, true, fun (x : Genie.PlayerColour) => x.minimap_color_3, fun x y => { x with minimap_color_3 := y }⟩,
      ⟨"statistics_text", 4, true, fun (x : Genie.PlayerColour) => x.statistics_text, fun x y => { x with statistics_text := y }⟩]
  | .record .GraphicDelta => [
      ⟨"graphic_id", 2, true, fun (x : Genie.GraphicDelta) => x.graphic_id, fun x y => { x with graphic_id := y }⟩,
      ⟨"padding_1", 2, true, fun (x : Genie.GraphicDelta) => x.padding_1, fun x y => { x with padding_1 := y }⟩,
      ⟨"sprite_ptr", 4, true, fun (x : Genie.GraphicDelta) => x.sprite_ptr, fun x y => { x with sprite_ptr := y }⟩,
      ⟨"offset_x", 2, true, fun (x : Genie.GraphicDelta) => x.offset_x, fun x y => { x with offset_x := y }⟩,
      ⟨"offset_y", 2, true, fun (x : Genie.GraphicDelta) => x.offset_y, fun x y => { x with offset_y := y }⟩,
      ⟨"display_angle", 2, true, fun (x : Genie.GraphicDelta) => x.display_angle, fun x y => { x with display_angle := y }⟩,
      ⟨"padding_2", 2, true, fun (x : Genie.GraphicDelta) => x.padding_2, fun x y => { x with padding_2 := y }⟩]
  | .record .GraphicAngleSound => [
      ⟨"frame_num", 2, true, fun (x : Genie.GraphicAngleSound) => x.frame_num, fun x y => { x with frame_num := y }⟩,
      ⟨"sound_id", 2, true, fun (x : Genie.GraphicAngleSound) => x.sound_id, fun x y => { x with sound_id := y }⟩,
      ⟨"wwise_sound_id", 4, true, fun (x : Genie.GraphicAngleSound) => x.wwise_sound_id, fun x y => { x with wwise_sound_id := y }⟩,
      ⟨"frame_num_2", 2, true, fun (x : Genie.GraphicAngleSound) => x.frame_num_2, fun x y => { x with frame_num_2 := y }⟩,
      ⟨"sound_id_2", 2, true, fun (x : Genie.GraphicAngleSound) => x.sound_id_2, fun x y => { x with sound_id_2 := y }⟩,
      ⟨"wwise_sound_id_2", 4, true, fun (x : Genie.GraphicAngleSound) => x.wwise_sound_id_2, fun x y => { x with wwise_sound_id_2 := y }⟩,
      ⟨"frame_num_3", 2, true, fun (x : Genie.GraphicAngleSound) => x.frame_num_3, fun x y => { x with frame_num_3 := y }⟩,
      ⟨"sound_id_3", 2, true, fun (x : Genie.GraphicAngleSound) => x.sound_id_3, fun x y => { x with sound_id_3 := y }⟩,
      ⟨"wwise_sound_id_3", 4, true, fun (x : Genie.GraphicAngleSound) => x.wwise_sound_id_3, fun x y => { x with wwise_sound_id_3 := y }⟩]
  | .record .Graphic => [
      ⟨"slp", 4, true, fun (x : Genie.Graphic) => x.slp, fun x y => { x with slp := y }⟩,
      ⟨"is_loaded", 1, false, fun (x : Genie.Graphic) => x.is_loaded, fun x y => { x with is_loaded := y }⟩,
      ⟨"old_color_flag", 1, false, fun (x : Genie.Graphic) => x.old_color_flag, fun x y => { x with old_color_flag := y }⟩,
      ⟨"layer", 1, false, fun (x : Genie.Graphic) => x.layer, fun x y => { x with layer := y }⟩,
      ⟨"player_color", 2, true, fun (x : Genie.Graphic) => x.player_color, fun x y => { x with player_color := y }⟩,
      ⟨"transparent_selection", 1, false, fun (x : Genie.Graphic) => x.transparent_selection, fun x y => { x with transparent_selection := y }⟩,
      ⟨"sound_id", 2, true, fun (x : Genie.Graphic) => x.sound_id, fun x y => { x with sound_id := y }⟩,
      ⟨"wwise_sound_id", 4, true, fun (x : Genie.Graphic) => x.wwise_sound_id, fun x y => { x with wwise_sound_id := y }⟩,
      ⟨"frame_count", 2, true, fun (x : Genie.Graphic) => x.frame_count, fun x y => { x with frame_count := y }⟩,
      ⟨"sequence_type", 1, false, fun (x : Genie.Graphic) => x.sequence_type, fun x y => { x with sequence_type := y }⟩,
      ⟨"id", 2, true, fun (x : Genie.Graphic) => x.id, fun x y => { x with id := y }⟩,
      ⟨"mirroring_mode", 1, false, fun (x : Genie.Graphic) => x.mirroring_mode, fun x y => { x with mirroring_mode := y }⟩,
      ⟨"editor_flag", 1, false, fun (x : Genie.Graphic) => x.editor_flag, fun x y => { x with editor_flag := y }⟩]
  | .record .TerrainPassGraphic => [
      ⟨"exit_tile_sprite_id", 4, true, fun (x : Genie.TerrainPassGraphic) => x.exit_tile_sprite_id, fun x y => { x with exit_tile_sprite_id := y }⟩,
      ⟨"enter_tile_sprite_id", 4, true, fun (x : Genie.TerrainPassGraphic) => x.enter_tile_sprite_id, fun x y => { x with enter_tile_sprite_id := y }⟩,
      ⟨"walk_tile_sprite_id", 4, true, fun (x : Genie.TerrainPassGraphic) => x.walk_tile_sprite_id, fun x y => { x with walk_tile_sprite_id := y }⟩,
      ⟨"walk_sprite_rate", 4, true, fun (x : Genie.TerrainPassGraphic) => x.walk_sprite_rate, fun x y => { x with walk_sprite_rate := y }⟩]
  | .record .FrameData => [
      ⟨"frame_count", 2, true, fun (x : Genie.FrameData) => x.frame_count, fun x y => { x with frame_count := y }⟩,
      ⟨"angle_count", 2, true, fun (x : Genie.FrameData) => x.angle_count, fun x y => { x with angle_count := y }⟩,
      ⟨"shape_id", 2, true, fun (x : Genie.FrameData) => x.shape_id, fun x y => { x with shape_id := y }⟩]
  | .record .Terrain => [
      ⟨"enabled", 1, false, fun (x : Genie.Terrain) => x.enabled, fun x y => { x with enabled := y }⟩,
      ⟨"random", 1, false, fun (x : Genie.Terrain) => x.random, fun x y => { x with random := y }⟩,
      ⟨"is_water", 1, false, fun (x : Genie.Terrain) => x.is_water, fun x y => { x with is_water := y }⟩,
      ⟨"hide_in_editor", 1, false, fun (x : Genie.Terrain) => x.hide_in_editor, fun x y => { x with hide_in_editor := y }⟩,
      ⟨"string_id", 4, true, fun (x : Genie.Terrain) => x.string_id, fun x y => { x with string_id := y }⟩,
      ⟨"slp", 4, true, fun (x : Genie.Terrain) => x.slp, fun x y => { x with slp := y }⟩,
      ⟨"shape_ptr", 4, true, fun (x : Genie.Terrain) => x.shape_ptr, fun x y => { x with shape_ptr := y }⟩,
      ⟨"sound_id", 4, true, fun (x : Genie.Terrain) => x.sound_id, fun x y => { x with sound_id := y }⟩,
      ⟨"wwise_sound_id", 4, false, fun (x : Genie.Terrain) => x.wwise_sound_id, fun x y => { x with wwise_sound_id := y }⟩,
      ⟨"wwise_sound_stop_id", 4, false, fun (x : Genie.Terrain) => x.wwise_sound_stop_id, fun x y => { x with wwise_sound_stop_id := y }⟩,
      ⟨"blend_priority", 4, true, fun (x : Genie.Terrain) => x.blend_priority, fun x y => { x with blend_priority := y }⟩,
      ⟨"blend_type", 4, true, fun (x : Genie.Terrain) => x.blend_type, fun x y => { x with blend_type := y }⟩,
      ⟨"passable_terrain", 1, false, fun (x : Genie.Terrain) => x.passable_terrain, fun x y => { x with passable_terrain := y }⟩,
      ⟨"impassable_terrain", 1, false, fun (x : Genie.Terrain) => x.impassable_terrain, fun x y => { x with impassable_terrain := y }⟩,
      ⟨"is_animated", 1, false, fun (x : Genie.Terrain) => x.is_animated, fun x y => { x with is_animated := y }⟩,
      ⟨"animation_frames", 2, true, fun (x : Genie.Terrain) => x.animation_frames, fun x y => { x with animation_frames := y }⟩,
      ⟨"pause_frames", 2, true, fun (x : Genie.Terrain) => x.pause_frames, fun x y => { x with pause_frames := y }⟩,
      ⟨"frame", 2, true, fun (x : Genie.Terrain) => x.frame, fun x y => { x with frame := y }⟩,
      ⟨"draw_frame", 2, true, fun (x : Genie.Terrain) => x.draw_frame, fun x y => { x with draw_frame := y }⟩,
      ⟨"frame_changed", 1, false, fun (x : Genie.Terrain) => x.frame_changed, fun x y => { x with frame_changed := y }⟩,
      ⟨"drawn", 1, false, fun (x : Genie.Terrain) => x.drawn, fun x y => { x with drawn := y }⟩,
      ⟨"terrain_to_draw", 2, true, fun (x : Genie.Terrain) => x.terrain_to_draw, fun x y => { x with terrain_to_draw := y }⟩,
      ⟨"number_of_terrain_units_used", 2, true, fun (x : Genie.Terrain) => x.number_of_terrain_units_used, fun x y => { x with number_of_terrain_units_used := y }⟩,
      ⟨"phantom", 2, true, fun (x : Genie.Terrain) => x.phantom, fun x y => { x with phantom := y }⟩]
  | .record .TileSize => [
      ⟨"width", 2, true, fun (x : Genie.TileSize) => x.width, fun x y => { x with width := y }⟩,
      ⟨"height", 2, true, fun (x : Genie.TileSize) => x.height, fun x y => { x with height := y }⟩,
      ⟨"delta_y", 2, true, fun (x : Genie.TileSize) => x.delta_y, fun x y => { x with delta_y := y }⟩]
  | .record .TerrainBlock => [
      ⟨"virtual_function_ptr", 4, false, fun (x : Genie.TerrainBlock) => x.virtual_function_ptr, fun x y => { x with virtual_function_ptr := y }⟩,
      ⟨"map_pointer", 4, false, fun (x : Genie.TerrainBlock) => x.map_pointer, fun x y => { x with map_pointer := y }⟩,
      ⟨"map_width", 4, true, fun (x : Genie.TerrainBlock) => x.map_width, fun x y => { x with map_width := y }⟩,
      ⟨"map_height", 4, true, fun (x : Genie.TerrainBlock) => x.map_height, fun x y => { x with map_height := y }⟩,
      ⟨"world_width", 4, true, fun (x : Genie.TerrainBlock) => x.world_width, fun x y => { x with world_width := y }⟩,
      ⟨"world_height", 4, true, fun (x : Genie.TerrainBlock) => x.world_height, fun x y => { x with world_height := y }⟩,
      ⟨"padding_ts", 2, true, fun (x : Genie.TerrainBlock) => x.padding_ts, fun x y => { x with padding_ts := y }⟩,
      ⟨"terrains_used_2", 2, true, fun (x : Genie.TerrainBlock) => x.terrains_used_2, fun x y => { x with terrains_used_2 := y }⟩,
      ⟨"borders_used", 2, true, fun (x : Genie.TerrainBlock) => x.borders_used, fun x y => { x with borders_used := y }⟩,
      ⟨"max_terrain", 2, true, fun (x : Genie.TerrainBlock) => x.max_terrain, fun x y => { x with max_terrain := y }⟩,
      ⟨"tile_width", 2, true, fun (x : Genie.TerrainBlock) => x.tile_width, fun x y => { x with tile_width := y }⟩,
      ⟨"tile_height", 2, true, fun (x : Genie.TerrainBlock) => x.tile_height, fun x y => { x with tile_height := y }⟩,
      ⟨"tile_half_height", 2, true, fun (x : Genie.TerrainBlock) => x.tile_half_height, fun x y => { x with tile_half_height := y }⟩,
      ⟨"tile_half_width", 2, true, fun (x : Genie.TerrainBlock) => x.tile_half_width, fun x y => { x with tile_half_width := y }⟩,
      ⟨"elev_height", 2, true, fun (x : Genie.TerrainBlock) => x.elev_height, fun x y => { x with elev_height := y }⟩,
      ⟨"cur_row", 2, true, fun (x : Genie.TerrainBlock) => x.cur_row, fun x y => { x with cur_row := y }⟩,
      ⟨"cur_col", 2, true, fun (x : Genie.TerrainBlock) => x.cur_col, fun x y => { x with cur_col := y }⟩,
      ⟨"block_beg_row", 2, true, fun (x : Genie.TerrainBlock) => x.block_beg_row, fun x y => { x with block_beg_row := y }⟩,
      ⟨"block_end_row", 2, true, fun (x : Genie.TerrainBlock) => x.block_end_row, fun x y => { x with block_end_row := y }⟩,
      ⟨"block_beg_col", 2, true, fun (x : Genie.TerrainBlock) => x.block_beg_col, fun x y => { x with block_beg_col := y }⟩,
      ⟨"block_end_col", 2, true, fun (x : Genie.TerrainBlock) => x.block_end_col, fun x y => { x with block_end_col := y }⟩,
      ⟨"search_map_ptr", 4, false, fun (x : Genie.TerrainBlock) => x.search_map_ptr, fun x y => { x with search_map_ptr := y }⟩,
      ⟨"search_map_rows_ptr", 4, false, fun (x : Genie.TerrainBlock) => x.search_map_rows_ptr, fun x y => { x with search_map_rows_ptr := y }⟩,
      ⟨"any_frame_change", 1, false, fun (x : Genie.TerrainBlock) => x.any_frame_change, fun x y => { x with any_frame_change := y }⟩,
      ⟨"map_visible_flag", 1, false, fun (x : Genie.TerrainBlock) => x.map_visible_flag, fun x y => { x with map_visible_flag := y }⟩,
      ⟨"fog_flag", 1, false, fun (x : Genie.TerrainBlock) => x.fog_flag, fun x y => { x with fog_flag := y }⟩]
  | .record .MapUnit => [
      ⟨"unit", 4, true, fun (x : Genie.MapUnit) => x.unit, fun x y => { x with unit := y }⟩,
      ⟨"host_terrain", 4, true, fun (x : Genie.MapUnit) => x.host_terrain, fun x y => { x with host_terrain := y }⟩,
      ⟨"group_placing", 1, false, fun (x : Genie.MapUnit) => x.group_placing, fun x y => { x with group_placing := y }⟩,
      ⟨"scale_flag", 1, false, fun (x : Genie.MapUnit) => x.scale_flag, fun x y => { x with scale_flag := y }⟩,
      ⟨"padding_1", 2, true, fun (x : Genie.MapUnit) => x.padding_1, fun x y => { x with padding_1 := y }⟩,
      ⟨"objects_per_group", 4, true, fun (x : Genie.MapUnit) => x.objects_per_group, fun x y => { x with objects_per_group := y }⟩,
      ⟨"fluctuation", 4, true, fun (x : Genie.MapUnit) => x.fluctuation, fun x y => { x with fluctuation := y }⟩,
      ⟨"groups_per_player", 4, true, fun (x : Genie.MapUnit) => x.groups_per_player, fun x y => { x with groups_per_player := y }⟩,
      ⟨"group_arena", 4, true, fun (x : Genie.MapUnit) => x.group_arena, fun x y => { x with group_arena := y }⟩,
      ⟨"player_id", 4, true, fun (x : Genie.MapUnit) => x.player_id, fun x y => { x with player_id := y }⟩,
      ⟨"set_place_for_all_players", 4, true, fun (x : Genie.MapUnit) => x.set_place_for_all_players, fun x y => { x with set_place_for_all_players := y }⟩,
      ⟨"min_distance_to_players", 4, true, fun (x : Genie.MapUnit) => x.min_distance_to_players, fun x y => { x with min_distance_to_players := y }⟩,
      ⟨"max_distance_to_players", 4, true, fun (x : Genie.MapUnit) => x.max_distance_to_players, fun x y => { x with max_distance_to_players := y }⟩]
  | .record .MapTerrain => [
      ⟨"proportion", 4, true, fun (x : Genie.MapTerrain) => x.proportion, fun x y => { x with proportion := y }⟩,
      ⟨"terrain", 4, true, fun (x : Genie.MapTerrain) => x.terrain, fun x y => { x with terrain := y }⟩,
      ⟨"clump_count", 4, true, fun (x : Genie.MapTerrain) => x.clump_count, fun x y => { x with clump_count := y }⟩,
      ⟨"edge_spacing", 4, true, fun (x : Genie.MapTerrain) => x.edge_spacing, fun x y => { x with edge_spacing := y }⟩,
      ⟨"placement_terrain", 4, true, fun (x : Genie.MapTerrain) => x.placement_terrain, fun x y => { x with placement_terrain := y }⟩,
      ⟨"clumpiness", 4, true, fun (x : Genie.MapTerrain) => x.clumpiness, fun x y => { x with clumpiness := y }⟩]
  | .record .MapLand => [
      ⟨"land_id", 4, true, fun (x : Genie.MapLand) => x.land_id, fun x y => { x with land_id := y }⟩,
      ⟨"terrain", 4, false, fun (x : Genie.MapLand) => x.terrain, fun x y => { x with terrain := y }⟩,
      ⟨"land_spacing", 4, true, fun (x : Genie.MapLand) => x.land_spacing, fun x y => { x with land_spacing := y }⟩,
      ⟨"base_size", 4, true, fun (x : Genie.MapLand) => x.base_size, fun x y => { x with base_size := y }⟩,
      ⟨"zone", 1, false, fun (x : Genie.MapLand) => x.zone, fun x y => { x with zone := y }⟩,
      ⟨"placement_type", 1, false, fun (x : Genie.MapLand) => x.placement_type, fun x y => { x with placement_type := y }⟩,
      ⟨"padding_1", 2, true, fun (x : Genie.MapLand) => x.padding_1, fun x y => { x with padding_1 := y }⟩,
      ⟨"base_x", 4, true, fun (x : Genie.MapLand) => x.base_x, fun x y => { x with base_x := y }⟩,
      ⟨"base_y", 4, true, fun (x : Genie.MapLand) => x.base_y, fun x y => { x with base_y := y }⟩,
      ⟨"land_proportion", 1, false, fun (x : Genie.MapLand) => x.land_proportion, fun x y => { x with land_proportion := y }⟩,
      ⟨"by_player_flag", 1, false, fun (x : Genie.MapLand) => x.by_player_flag, fun x y => { x with by_player_flag := y }⟩,
      ⟨"padding_2", 2, true, fun (x : Genie.MapLand) => x.padding_2, fun x y => { x with padding_2 := y }⟩,
      ⟨"start_area_radius", 4, true, fun (x : Genie.MapLand) => x.start_area_radius, fun x y => { x with start_area_radius := y }⟩,
      ⟨"terrain_edge_fade", 4, true, fun (x : Genie.MapLand) => x.terrain_edge_fade, fun x y => { x with terrain_edge_fade := y }⟩,
      ⟨"clumpiness", 4, true, fun (x : Genie.MapLand) => x.clumpiness, fun x y => { x with clumpiness := y }⟩]
  | .record .MapElevation => [
      ⟨"proportion", 4, true, fun (x : Genie.MapElevation) => x.proportion, fun x y => { x with proportion := y }⟩,
      ⟨"terrain", 4, true, fun (x : Genie.MapElevation) => x.terrain, fun x y => { x with terrain := y }⟩,
      ⟨"clump_count", 4, true, fun (x : Genie.MapElevation) => x.clump_count, fun x y => { x with clump_count := y }⟩,
      ⟨"base_terrain", 4, true, fun (x : Genie.MapElevation) => x.base_terrain, fun x y => { x with base_terrain := y }⟩,
      ⟨"base_elevation", 4, true, fun (x : Genie.MapElevation) => x.base_elevation, fun x y => { x with base_elevation := y }⟩,
      ⟨"tile_spacing", 4, true, fun (x : Genie.MapElevation) => x.tile_spacing, fun x y => { x with tile_spacing := y }⟩]
  | .record .MapInfo => [
      ⟨"map_id", 4, true, fun (x : Genie.MapInfo) => x.map_id, fun x y => { x with map_id := y }⟩,
      ⟨"border_south_west", 4, true, fun (x : Genie.MapInfo) => x.border_south_west, fun x y => { x with border_south_west := y }⟩,
      ⟨"border_north_west", 4, true, fun (x : Genie.MapInfo) => x.border_north_west, fun x y => { x with border_north_west := y }⟩,
      ⟨"border_north_east", 4, true, fun (x : Genie.MapInfo) => x.border_north_east, fun x y => { x with border_north_east := y }⟩,
      ⟨"border_south_east", 4, true, fun (x : Genie.MapInfo) => x.border_south_east, fun x y => { x with border_south_east := y }⟩,
      ⟨"border_usage", 4, true, fun (x : Genie.MapInfo) => x.border_usage, fun x y => { x with border_usage := y }⟩,
      ⟨"water_shape", 4, true, fun (x : Genie.MapInfo) => x.water_shape, fun x y => { x with water_shape := y }⟩,
      ⟨"base_terrain", 4, true, fun (x : Genie.MapInfo) => x.base_terrain, fun x y => { x with base_terrain := y }⟩,
      ⟨"land_coverage", 4, true, fun (x : Genie.MapInfo) => x.land_coverage, fun x y => { x with land_coverage := y }⟩,
      ⟨"unused_id", 4, true, fun (x : Genie.MapInfo) => x.unused_id, fun x y => { x with unused_id := y }⟩,
      ⟨"map_lands_ptr", 4, true, fun (x : Genie.MapInfo) => x.map_lands_ptr, fun x y => { x with map_lands_ptr := y }⟩,
      ⟨"map_terrains_ptr", 4, true, fun (x : Genie.MapInfo) => x.map_terrains_ptr, fun x y => { x with map_terrains_ptr := y }⟩,
      ⟨"map_units_ptr", 4, true, fun (x : Genie.MapInfo) => x.map_units_ptr, fun x y => { x with map_units_ptr := y }⟩,
      ⟨"map_elevations_ptr", 4, true, fun (x : Genie.MapInfo) => x.map_elevations_ptr, fun x y => { x with map_elevations_ptr := y }⟩]
  | .record .RandomMaps => [
      ⟨"random_maps_ptr", 4, true, fun (x : Genie.RandomMaps) => x.random_maps_ptr, fun x y => { x with random_maps_ptr := y }⟩]
  | .record .ResearchResourceCost => [
      ⟨"type", 2, true, fun (x : Genie.ResearchResourceCost) => x.type, fun x y => { x with type := y }⟩,
      ⟨"amount", 2, true, fun (x : Genie.ResearchResourceCost) => x.amount, fun x y => { x with amount := y }⟩,
      ⟨"flag", 1, false, fun (x : Genie.ResearchResourceCost) => x.flag, fun x y => { x with flag := y }⟩]
  | .record .ResearchLocation => [
      ⟨"location_id", 2, true, fun (x : Genie.ResearchLocation) => x.location_id, fun x y => { x with location_id := y }⟩,
      ⟨"research_time", 2, true, fun (x : Genie.ResearchLocation) => x.research_time, fun x y => { x with research_time := y }⟩,
      ⟨"button_id", 1, false, fun (x : Genie.ResearchLocation) => x.button_id, fun x y => { x with button_id := y }⟩,
      ⟨"hot_key_id", 4, true, fun (x : Genie.ResearchLocation) => x.hot_key_id, fun x y => { x with hot_key_id := y }⟩]
  | .record .Tech => [
      ⟨"required_tech_count", 2, true, fun (x : Genie.Tech) => x.required_tech_count, fun x y => { x with required_tech_count := y }⟩,
      ⟨"civ", 2, true, fun (x : Genie.Tech) => x.civ, fun x y => { x with civ := y }⟩,
      ⟨"full_tech_mode", 2, true, fun (x : Genie.Tech) => x.full_tech_mode, fun x y => { x with full_tech_mode := y }⟩,
      ⟨"language_dll_name", 4, true, fun (x : Genie.Tech) => x.language_dll_name, fun x y => { x with language_dll_name := y }⟩,
      ⟨"language_dll_description", 4, true, fun (x : Genie.Tech) => x.language_dll_description, fun x y => { x with language_dll_description := y }⟩,
      ⟨"effect_id", 2, true, fun (x : Genie.Tech) => x.effect_id, fun x y => { x with effect_id := y }⟩,
      ⟨"type", 2, true, fun (x : Genie.Tech) => x.type, fun x y => { x with type := y }⟩,
      ⟨"icon_id", 2, true, fun (x : Genie.Tech) => x.icon_id, fun x y => { x with icon_id := y }⟩,
      ⟨"language_dll_help", 4, true, fun (x : Genie.Tech) => x.language_dll_help, fun x y => { x with language_dll_help := y }⟩,
      ⟨"language_dll_tech_tree", 4, true, fun (x : Genie.Tech) => x.language_dll_tech_tree, fun x y => { x with language_dll_tech_tree := y }⟩,
      ⟨"repeatable", 1, false, fun (x : Genie.Tech) => x.repeatable, fun x y => { x with repeatable := y }⟩]
  | .record .Common => [
      ⟨"slots_used", 4, true, fun (x : Genie.Common) => x.slots_used, fun x y => { x with slots_used := y }⟩]
  | .record .TechTreeAge => [
      ⟨"id", 4, true, fun (x : Genie.TechTreeAge) => x.id, fun x y => { x with id := y }⟩,
      ⟨"status", 1, false, fun (x : Genie.TechTreeAge) => x.status, fun x y => { x with status := y }⟩,
      ⟨"num_building_levels", 1, false, fun (x : Genie.TechTreeAge) => x.num_building_levels, fun x y => { x with num_building_levels := y }⟩,
      ⟨"max_age_length", 1, false, fun (x : Genie.TechTreeAge) => x.max_age_length, fun x y => { x with max_age_length := y }⟩,
      ⟨"line_mode", 4, true, fun (x : Genie.TechTreeAge) => x.line_mode, fun x y => { x with line_mode := y }⟩]
  | .record .BuildingConnection => [
      ⟨"id", 4, true, fun (x : Genie.BuildingConnection) => x.id, fun x y => { x with id := y }⟩,
      ⟨"status", 1, false, fun (x : Genie.BuildingConnection) => x.status, fun x y => { x with status := y }⟩,
      ⟨"location_in_age", 1, false, fun (x : Genie.BuildingConnection) => x.location_in_age, fun x y => { x with location_in_age := y }⟩,
      ⟨"line_mode", 4, true, fun (x : Genie.BuildingConnection) => x.line_mode, fun x y => { x with line_mode := y }⟩,
      ⟨"enabling_research", 4, true, fun (x : Genie.BuildingConnection) => x.enabling_research, fun x y => { x with enabling_research := y }⟩]
  | .record .UnitConnection => [
      ⟨"id", 4, true, fun (x : Genie.UnitConnection) => x.id, fun x y => { x with id := y }⟩,
      ⟨"status", 1, false, fun (x : Genie.UnitConnection) => x.status, fun x y => { x with status := y }⟩,
      ⟨"upper_building", 4, true, fun (x : Genie.UnitConnection) => x.upper_building, fun x y => { x with upper_building := y }⟩,
      ⟨"vertical_line", 4, true, fun (x : Genie.UnitConnection) => x.vertical_line, fun x y => { x with vertical_line := y }⟩,
      ⟨"location_in_age", 4, true, fun (x : Genie.UnitConnection) => x.location_in_age, fun x y => { x with location_in_age := y }⟩,
      ⟨"required_research", 4, true, fun (x : Genie.UnitConnection) => x.required_research, fun x y => { x with required_research := y }⟩,
      ⟨"line_mode", 4, true, fun (x : Genie.UnitConnection) => x.line_mode, fun x y => { x with line_mode := y }⟩,
      ⟨"enabling_research", 4, true, fun (x : Genie.UnitConnection) => x.enabling_research, fun x y => { x with enabling_research := y }⟩]
  | .record .ResearchConnection => [
      ⟨"id", 4, true, fun (x : Genie.ResearchConnection) => x.id, fun x y => { x with id := y }⟩,
      ⟨"status", 1, false, fun (x : Genie.ResearchConnection) => x.status, fun x y => { x with status := y }⟩,
      ⟨"upper_building", 4, true, fun (x : Genie.ResearchConnection) => x.upper_building, fun x y => { x with upper_building := y }⟩,
      ⟨"vertical_line", 4, true, fun (x : Genie.ResearchConnection) => x.vertical_line, fun x y => { x with vertical_line := y }⟩,
      ⟨"location_in_age", 4, true, fun (x : Genie.ResearchConnection) => x.location_in_age, fun x y => { x with location_in_age := y }⟩,
      ⟨"line_mode", 4, true, fun (x : Genie.ResearchConnection) => x.line_mode, fun x y => { x with line_mode := y }⟩]
  | .record .TechTree => [
      ⟨"total_unit_tech_groups", 4, true, fun (x : Genie.TechTree) => x.total_unit_tech_groups, fun x y => { x with total_unit_tech_groups := y }⟩]
  | .record .ResourceStorage => [
      ⟨"type", 2, true, fun (x : Genie.ResourceStorage) => x.type, fun x y => { x with type := y }⟩,
      ⟨"flag", 1, true, fun (x : Genie.ResourceStorage) => x.flag, fun x y => { x with flag := y }⟩]
  | .record .DamageGraphic => [
      ⟨"graphic_id", 2, true, fun (x : Genie.DamageGraphic) => x.graphic_id, fun x y => { x with graphic_id := y }⟩,
      ⟨"damage_percent", 2, true, fun (x : Genie.DamageGraphic) => x.damage_percent, fun x y => { x with damage_percent := y }⟩,
      ⟨"apply_mode", 1, true, fun (x : Genie.DamageGraphic) => x.apply_mode, fun x y => { x with apply_mode := y }⟩]
  | .record .DeadFish => [
      ⟨"walking_graphic", 2, true, fun (x : Genie.DeadFish) => x.walking_graphic, fun x y => { x with walking_graphic := y }⟩,
      ⟨"running_graphic", 2, true, fun (x : Genie.DeadFish) => x.running_graphic, fun x y => { x with running_graphic := y }⟩,
      ⟨"old_size_class", 1, true, fun (x : Genie.DeadFish) => x.old_size_class, fun x y => { x with old_size_class := y }⟩,
      ⟨"tracking_unit", 2, true, fun (x : Genie.DeadFish) => x.tracking_unit, fun x y => { x with tracking_unit := y }⟩,
      ⟨"tracking_unit_mode", 1, true, fun (x : Genie.DeadFish) => x.tracking_unit_mode, fun x y => { x with tracking_unit_mode := y }⟩,
      ⟨"old_move_algorithm", 1, true, fun (x : Genie.DeadFish) => x.old_move_algorithm, fun x y => { x with old_move_algorithm := y }⟩]
  | .record .Task => [
      ⟨"task_type", 2, true, fun (x : Genie.Task) => x.task_type, fun x y => { x with task_type := y }⟩,
      ⟨"id", 2, true, fun (x : Genie.Task) => x.id, fun x y => { x with id := y }⟩,
      ⟨"is_default", 1, true, fun (x : Genie.Task) => x.is_default, fun x y => { x with is_default := y }⟩,
      ⟨"action_type", 2, true, fun (x : Genie.Task) => x.action_type, fun x y => { x with action_type := y }⟩,
      ⟨"class_id", 2, true, fun (x : Genie.Task) => x.class_id, fun x y => { x with class_id := y }⟩,
      ⟨"unit_id", 2, true, fun (x : Genie.Task) => x.unit_id, fun x y => { x with unit_id := y }⟩,
      ⟨"terrain_id", 2, true, fun (x : Genie.Task) => x.terrain_id, fun x y => { x with terrain_id := y }⟩,
      ⟨"resource_in", 2, true, fun (x : Genie.Task) => x.resource_in, fun x y => { x with resource_in := y }⟩,
      ⟨"resource_multiplier", 2, true, fun (x : Genie.Task) => x.resource_multiplier, fun x y => { x with resource_multiplier := y }⟩,
      ⟨"resource_out", 2, true, fun (x : Genie.Task) => x.resource_out, fun x y => { x with resource_out := y }⟩,
      ⟨"unused_resource", 2, true, fun (x : Genie.Task) => x.unused_resource, fun x y => { x with unused_resource := y }⟩,
      ⟨"auto_search_targets", 1, true, fun (x : Genie.Task) => x.auto_search_targets, fun x y => { x with auto_search_targets := y }⟩,
      ⟨"enable_targeting", 1, true, fun (x : Genie.Task) => x.enable_targeting, fun x y => { x with enable_targeting := y }⟩,
      ⟨"combat_level_flag", 1, true, fun (x : Genie.Task) => x.combat_level_flag, fun x y => { x with combat_level_flag := y }⟩,
      ⟨"gather_type", 2, true, fun (x : Genie.Task) => x.gather_type, fun x y => { x with gather_type := y }⟩,
      ⟨"work_flag_2", 2, true, fun (x : Genie.Task) => x.work_flag_2, fun x y => { x with work_flag_2 := y }⟩,
      ⟨"target_diplomacy", 1, true, fun (x : Genie.Task) => x.target_diplomacy, fun x y => { x with target_diplomacy := y }⟩,
      ⟨"carry_check", 1, true, fun (x : Genie.Task) => x.carry_check, fun x y => { x with carry_check := y }⟩,
      ⟨"pick_for_construction", 1, true, fun (x : Genie.Task) => x.pick_for_construction, fun x y => { x with pick_for_construction := y }⟩,
      ⟨"moving_graphic_id", 2, true, fun (x : Genie.Task) => x.moving_graphic_id, fun x y => { x with moving_graphic_id := y }⟩,
      ⟨"proceeding_graphic_id", 2, true, fun (x : Genie.Task) => x.proceeding_graphic_id, fun x y => { x with proceeding_graphic_id := y }⟩,
      ⟨"working_graphic_id", 2, true, fun (x : Genie.Task) => x.working_graphic_id, fun x y => { x with working_graphic_id := y }⟩,
      ⟨"carrying_graphic_id", 2, true, fun (x : Genie.Task) => x.carrying_graphic_id, fun x y => { x with carrying_graphic_id := y }⟩,
      ⟨"resource_gathering_sound_id", 2, true, fun (x : Genie.Task) => x.resource_gathering_sound_id, fun x y => { x with resource_gathering_sound_id := y }⟩,
      ⟨"resource_deposit_sound_id", 2, true, fun (x : Genie.Task) => x.resource_deposit_sound_id, fun x y => { x with resource_deposit_sound_id := y }⟩,
      ⟨"wwise_resource_gathering_sound_id", 4, true, fun (x : Genie.Task) => x.wwise_resource_gathering_sound_id, fun x y => { x with wwise_resource_gathering_sound_id := y }⟩,
      ⟨"wwise_resource_deposit_sound_id", 4, true, fun (x : Genie.Task) => x.wwise_resource_deposit_sound_id, fun x y => { x with wwise_resource_deposit_sound_id := y }⟩] ++
    if 88 ≤ v.num then [
      ⟨"enabled", 2, true, fun (x : Genie.Task) => x.enabled, fun x y => { x with enabled := y }⟩] else []
  | .record .Bird => [
      ⟨"default_task_id", 2, true, fun (x : Genie.Bird) => x.default_task_id, fun x y => { x with default_task_id := y }⟩,
      ⟨"task_swap_group", 1, false, fun (x : Genie.Bird) => x.task_swap_group, fun x y => { x with task_swap_group := y }⟩,
      ⟨"attack_sound", 2, true, fun (x : Genie.Bird) => x.attack_sound, fun x y => { x with attack_sound := y }⟩,
      ⟨"move_sound", 2, true, fun (x : Genie.Bird) => x.move_sound, fun x y => { x with move_sound := y }⟩,
      ⟨"wwise_attack_sound_id", 4, true, fun (x : Genie.Bird) => x.wwise_attack_sound_id, fun x y => { x with wwise_attack_sound_id := y }⟩,
      ⟨"wwise_move_sound_id", 4, true, fun (x : Genie.Bird) => x.wwise_move_sound_id, fun x y => { x with wwise_move_sound_id := y }⟩,
      ⟨"run_pattern", 1, false, fun (x : Genie.Bird) => x.run_pattern, fun x y => { x with run_pattern := y }⟩]
  | .record .AttackOrArmor => [
      ⟨"class_", 2, true, fun (x : Genie.AttackOrArmor) => x.class_, fun x y => { x with class_ := y }⟩,
      ⟨"amount", 2, true, fun (x : Genie.AttackOrArmor) => x.amount, fun x y => { x with amount := y }⟩]
  | .record .Type50 => [
      ⟨"base_armor", 2, true, fun (x : Genie.Type50) => x.base_armor, fun x y => { x with base_armor := y }⟩,
      ⟨"defense_terrain_bonus", 2, true, fun (x : Genie.Type50) => x.defense_terrain_bonus, fun x y => { x with defense_terrain_bonus := y }⟩,
      ⟨"projectile_unit_id", 2, true, fun (x : Genie.Type50) => x.projectile_unit_id, fun x y => { x with projectile_unit_id := y }⟩,
      ⟨"accuracy_percent", 2, true, fun (x : Genie.Type50) => x.accuracy_percent, fun x y => { x with accuracy_percent := y }⟩,
      ⟨"break_off_combat", 1, false, fun (x : Genie.Type50) => x.break_off_combat, fun x y => { x with break_off_combat := y }⟩,
      ⟨"frame_delay", 2, true, fun (x : Genie.Type50) => x.frame_delay, fun x y => { x with frame_delay := y }⟩,
      ⟨"blast_attack_level", 1, false, fun (x : Genie.Type50) => x.blast_attack_level, fun x y => { x with blast_attack_level := y }⟩,
      ⟨"attack_graphic", 2, true, fun (x : Genie.Type50) => x.attack_graphic, fun x y => { x with attack_graphic := y }⟩,
      ⟨"displayed_melee_armour", 2, true, fun (x : Genie.Type50) => x.displayed_melee_armour, fun x y => { x with displayed_melee_armour := y }⟩,
      ⟨"displayed_attack", 2, true, fun (x : Genie.Type50) => x.displayed_attack, fun x y => { x with displayed_attack := y }⟩] ++
    if 84 ≤ v.num then [
      ⟨"interrupt_frame", 2, true, fun (x : Genie.Type50) => x.interrupt_frame, fun x y => { x with interrupt_frame := y }⟩,
      ⟨"attack_graphic_2", 2, true, fun (x : Genie.Type50) => x.attack_graphic_2, fun x y => { x with attack_graphic_2 := y }⟩] else []
  | .record .Projectile => [
      ⟨"projectile_type", 1, true, fun (x : Genie.Projectile) => x.projectile_type, fun x y => { x with projectile_type := y }⟩,
      ⟨"smart_mode", 1, true, fun (x : Genie.Projectile) => x.smart_mode, fun x y => { x with smart_mode := y }⟩,
      ⟨"hit_mode", 1, true, fun (x : Genie.Projectile) => x.hit_mode, fun x y => { x with hit_mode := y }⟩,
      ⟨"vanish_mode", 1, true, fun (x : Genie.Projectile) => x.vanish_mode, fun x y => { x with vanish_mode := y }⟩,
      ⟨"area_effect_specials", 1, true, fun (x : Genie.Projectile) => x.area_effect_specials, fun x y => { x with area_effect_specials := y }⟩]
  | .record .ResourceCost => [
      ⟨"type", 2, true, fun (x : Genie.ResourceCost) => x.type, fun x y => { x with type := y }⟩,
      ⟨"amount", 2, true, fun (x : Genie.ResourceCost) => x.amount, fun x y => { x with amount := y }⟩,
      ⟨"flag", 2, true, fun (x : Genie.ResourceCost) => x.flag, fun x y => { x with flag := y }⟩]
  | .record .TrainLocation => [
      ⟨"train_time", 2, true, fun (x : Genie.TrainLocation) => x.train_time, fun x y => { x with train_time := y }⟩,
      ⟨"unit_id", 2, true, fun (x : Genie.TrainLocation) => x.unit_id, fun x y => { x with unit_id := y }⟩,
      ⟨"button_id", 1, true, fun (x : Genie.TrainLocation) => x.button_id, fun x y => { x with button_id := y }⟩] ++
    if 88 ≤ v.num then [
      ⟨"hot_key_id", 4, true, fun (x : Genie.TrainLocation) => x.hot_key_id, fun x y => { x with hot_key_id := y }⟩] else []
  | .record .Creatable => [
      ⟨"creatable_type", 1, true, fun (x : Genie.Creatable) => x.creatable_type, fun x y => { x with creatable_type := y }⟩,
      ⟨"hero_mode", 1, true, fun (x : Genie.Creatable) => x.hero_mode, fun x y => { x with hero_mode := y }⟩,
      ⟨"garrison_graphic", 4, true, fun (x : Genie.Creatable) => x.garrison_graphic, fun x y => { x with garrison_graphic := y }⟩,
      ⟨"spawning_graphic", 2, true, fun (x : Genie.Creatable) => x.spawning_graphic, fun x y => { x with spawning_graphic := y }⟩,
      ⟨"upgrade_graphic", 2, true, fun (x : Genie.Creatable) => x.upgrade_graphic, fun x y => { x with upgrade_graphic := y }⟩,
      ⟨"hero_glow_graphic", 2, true, fun (x : Genie.Creatable) => x.hero_glow_graphic, fun x y => { x with hero_glow_graphic := y }⟩,
      ⟨"charge_event", 2, true, fun (x : Genie.Creatable) => x.charge_event, fun x y => { x with charge_event := y }⟩,
      ⟨"charge_type", 2, true, fun (x : Genie.Creatable) => x.charge_type, fun x y => { x with charge_type := y }⟩,
      ⟨"max_total_projectiles", 1, true, fun (x : Genie.Creatable) => x.max_total_projectiles, fun x y => { x with max_total_projectiles := y }⟩,
      ⟨"secondary_projectile_unit", 4, true, fun (x : Genie.Creatable) => x.secondary_projectile_unit, fun x y => { x with secondary_projectile_unit := y }⟩,
      ⟨"special_graphic", 4, true, fun (x : Genie.Creatable) => x.special_graphic, fun x y => { x with special_graphic := y }⟩,
      ⟨"special_ability", 1, true, fun (x : Genie.Creatable) => x.special_ability, fun x y => { x with special_ability := y }⟩,
      ⟨"displayed_pierce_armour", 2, true, fun (x : Genie.Creatable) => x.displayed_pierce_armour, fun x y => { x with displayed_pierce_armour := y }⟩] ++
    if 84 ≤ v.num then [
      ⟨"idle_attack_graphic", 2, true, fun (x : Genie.Creatable) => x.idle_attack_graphic, fun x y => { x with idle_attack_graphic := y }⟩,
      ⟨"charge_target", 2, true, fun (x : Genie.Creatable) => x.charge_target, fun x y => { x with charge_target := y }⟩,
      ⟨"charge_projectile_unit", 4, true, fun (x : Genie.Creatable) => x.charge_projectile_unit, fun x y => { x with charge_projectile_unit := y }⟩,
      ⟨"attack_priority", 1, true, fun (x : Genie.Creatable) => x.attack_priority, fun x y => { x with attack_priority := y }⟩,
      ⟨"button_icon_id", 2, true, fun (x : Genie.Creatable) => x.button_icon_id, fun x y => { x with button_icon_id := y }⟩,
      ⟨"button_short_tooltip_id", 4, true, fun (x : Genie.Creatable) => x.button_short_tooltip_id, fun x y => { x with button_short_tooltip_id := y }⟩,
      ⟨"button_extended_tooltip_id", 4, true, fun (x : Genie.Creatable) => x.button_extended_tooltip_id, fun x y => { x with button_extended_tooltip_id := y }⟩,
      ⟨"button_hotkey_action", 2, true, fun (x : Genie.Creatable) => x.button_hotkey_action, fun x y => { x with button_hotkey_action := y }⟩] else []
  | .record .BuildingAnnex => [
      ⟨"unit_id", 2, true, fun (x : Genie.BuildingAnnex) => x.unit_id, fun x y => { x with unit_id := y }⟩]
  | .record .Building => [
      ⟨"construction_graphic_id", 2, true, fun (x : Genie.Building) => x.construction_graphic_id, fun x y => { x with construction_graphic_id := y }⟩,
      ⟨"snow_graphic_id", 2, true, fun (x : Genie.Building) => x.snow_graphic_id, fun x y => { x with snow_graphic_id := y }⟩,
      ⟨"destruction_graphic_id", 2, true, fun (x : Genie.Building) => x.destruction_graphic_id, fun x y => { x with destruction_graphic_id := y }⟩,
      ⟨"destruction_rubble_graphic_id", 2, true, fun (x : Genie.Building) => x.destruction_rubble_graphic_id, fun x y => { x with destruction_rubble_graphic_id := y }⟩,
      ⟨"researching_graphic", 2, true, fun (x : Genie.Building) => x.researching_graphic, fun x y => { x with researching_graphic := y }⟩,
      ⟨"research_completed_graphic", 2, true, fun (x : Genie.Building) => x.research_completed_graphic, fun x y => { x with research_completed_graphic := y }⟩,
      ⟨"adjacent_mode", 1, true, fun (x : Genie.Building) => x.adjacent_mode, fun x y => { x with adjacent_mode := y }⟩,
      ⟨"graphics_angle", 2, true, fun (x : Genie.Building) => x.graphics_angle, fun x y => { x with graphics_angle := y }⟩,
      ⟨"disappears_when_built", 1, true, fun (x : Genie.Building) => x.disappears_when_built, fun x y => { x with disappears_when_built := y }⟩,
      ⟨"stack_unit_id", 2, true, fun (x : Genie.Building) => x.stack_unit_id, fun x y => { x with stack_unit_id := y }⟩,
      ⟨"foundation_terrain_id", 2, true, fun (x : Genie.Building) => x.foundation_terrain_id, fun x y => { x with foundation_terrain_id := y }⟩,
      ⟨"old_overlap_id", 2, true, fun (x : Genie.Building) => x.old_overlap_id, fun x y => { x with old_overlap_id := y }⟩,
      ⟨"tech_id", 2, true, fun (x : Genie.Building) => x.tech_id, fun x y => { x with tech_id := y }⟩,
      ⟨"can_burn", 1, true, fun (x : Genie.Building) => x.can_burn, fun x y => { x with can_burn := y }⟩,
      ⟨"head_unit", 2, true, fun (x : Genie.Building) => x.head_unit, fun x y => { x with head_unit := y }⟩,
      ⟨"transform_unit", 2, true, fun (x : Genie.Building) => x.transform_unit, fun x y => { x with transform_unit := y }⟩,
      ⟨"transform_sound", 2, true, fun (x : Genie.Building) => x.transform_sound, fun x y => { x with transform_sound := y }⟩,
      ⟨"construction_sound", 2, true, fun (x : Genie.Building) => x.construction_sound, fun x y => { x with construction_sound := y }⟩,
      ⟨"wwise_transform_sound_id", 4, true, fun (x : Genie.Building) => x.wwise_transform_sound_id, fun x y => { x with wwise_transform_sound_id := y }⟩,
      ⟨"wwise_construction_sound_id", 4, true, fun (x : Genie.Building) => x.wwise_construction_sound_id, fun x y => { x with wwise_construction_sound_id := y }⟩,
      ⟨"garrison_type", 1, true, fun (x : Genie.Building) => x.garrison_type, fun x y => { x with garrison_type := y }⟩,
      ⟨"pile_unit", 2, true, fun (x : Genie.Building) => x.pile_unit, fun x y => { x with pile_unit := y }⟩]
  | .record .Unit => [
      ⟨"id", 2, true, fun (x : Genie.Unit) => x.id, fun x y => { x with id := y }⟩,
      ⟨"language_dll_name", 4, true, fun (x : Genie.Unit) => x.language_dll_name, fun x y => { x with language_dll_name := y }⟩,
      ⟨"language_dll_creation", 4, true, fun (x : Genie.Unit) => x.language_dll_creation, fun x y => { x with language_dll_creation := y }⟩,
      ⟨"class_", 2, true, fun (x : Genie.Unit) => x.class_, fun x y => { x with class_ := y }⟩,
      ⟨"dying_graphic", 2, true, fun (x : Genie.Unit) => x.dying_graphic, fun x y => { x with dying_graphic := y }⟩,
      ⟨"undead_graphic", 2, true, fun (x : Genie.Unit) => x.undead_graphic, fun x y => { x with undead_graphic := y }⟩,
      ⟨"undead_mode", 1, true, fun (x : Genie.Unit) => x.undead_mode, fun x y => { x with undead_mode := y }⟩,
      ⟨"hit_points", 2, true, fun (x : Genie.Unit) => x.hit_points, fun x y => { x with hit_points := y }⟩,
      ⟨"garrison_capacity", 1, true, fun (x : Genie.Unit) => x.garrison_capacity, fun x y => { x with garrison_capacity := y }⟩,
      ⟨"train_sound", 2, true, fun (x : Genie.Unit) => x.train_sound, fun x y => { x with train_sound := y }⟩,
      ⟨"damage_sound", 2, true, fun (x : Genie.Unit) => x.damage_sound, fun x y => { x with damage_sound := y }⟩,
      ⟨"dead_unit_id", 2, true, fun (x : Genie.Unit) => x.dead_unit_id, fun x y => { x with dead_unit_id := y }⟩,
      ⟨"blood_unit_id", 2, true, fun (x : Genie.Unit) => x.blood_unit_id, fun x y => { x with blood_unit_id := y }⟩,
      ⟨"sort_number", 1, true, fun (x : Genie.Unit) => x.sort_number, fun x y => { x with sort_number := y }⟩,
      ⟨"can_be_built_on", 1, true, fun (x : Genie.Unit) => x.can_be_built_on, fun x y => { x with can_be_built_on := y }⟩,
      ⟨"icon_id", 2, true, fun (x : Genie.Unit) => x.icon_id, fun x y => { x with icon_id := y }⟩,
      ⟨"hide_in_editor", 1, true, fun (x : Genie.Unit) => x.hide_in_editor, fun x y => { x with hide_in_editor := y }⟩,
      ⟨"old_portrait_pict", 2, true, fun (x : Genie.Unit) => x.old_portrait_pict, fun x y => { x with old_portrait_pict := y }⟩,
      ⟨"enabled", 1, true, fun (x : Genie.Unit) => x.enabled, fun x y => { x with enabled := y }⟩,
      ⟨"disabled", 1, true, fun (x : Genie.Unit) => x.disabled, fun x y => { x with disabled := y }⟩,
      ⟨"hill_mode", 1, true, fun (x : Genie.Unit) => x.hill_mode, fun x y => { x with hill_mode := y }⟩,
      ⟨"fog_visibility", 1, true, fun (x : Genie.Unit) => x.fog_visibility, fun x y => { x with fog_visibility := y }⟩,
      ⟨"terrain_restriction", 2, true, fun (x : Genie.Unit) => x.terrain_restriction, fun x y => { x with terrain_restriction := y }⟩,
      ⟨"fly_mode", 1, true, fun (x : Genie.Unit) => x.fly_mode, fun x y => { x with fly_mode := y }⟩,
      ⟨"resource_capacity", 2, true, fun (x : Genie.Unit) => x.resource_capacity, fun x y => { x with resource_capacity := y }⟩,
      ⟨"blast_defense_level", 1, true, fun (x : Genie.Unit) => x.blast_defense_level, fun x y => { x with blast_defense_level := y }⟩,
      ⟨"combat_level", 1, true, fun (x : Genie.Unit) => x.combat_level, fun x y => { x with combat_level := y }⟩,
      ⟨"interaction_mode", 1, true, fun (x : Genie.Unit) => x.interaction_mode, fun x y => { x with interaction_mode := y }⟩,
      ⟨"minimap_mode", 1, true, fun (x : Genie.Unit) => x.minimap_mode, fun x y => { x with minimap_mode := y }⟩,
      ⟨"interface_kind", 1, true, fun (x : Genie.Unit) => x.interface_kind, fun x y => { x with interface_kind := y }⟩,
      ⟨"minimap_color", 1, true, fun (x : Genie.Unit) => x.minimap_color, fun x y => { x with minimap_color := y }⟩,
      ⟨"language_dll_help", 4, true, fun (x : Genie.Unit) => x.language_dll_help, fun x y => { x with language_dll_help := y }⟩,
      ⟨"language_dll_hotkey_text", 4, true, fun (x : Genie.Unit) => x.language_dll_hotkey_text, fun x y => { x with language_dll_hotkey_text := y }⟩,
      ⟨"recyclable", 1, true, fun (x : Genie.Unit) => x.recyclable, fun x y => { x with recyclable := y }⟩,
      ⟨"enable_auto_gather", 1, true, fun (x : Genie.Unit) => x.enable_auto_gather, fun x y => { x with enable_auto_gather := y }⟩,
      ⟨"create_doppelganger_on_death", 1, true, fun (x : Genie.Unit) => x.create_doppelganger_on_death, fun x y => { x with create_doppelganger_on_death := y }⟩,
      ⟨"resource_gather_group", 1, true, fun (x : Genie.Unit) => x.resource_gather_group, fun x y => { x with resource_gather_group := y }⟩,
      ⟨"occlusion_mode", 1, true, fun (x : Genie.Unit) => x.occlusion_mode, fun x y => { x with occlusion_mode := y }⟩,
      ⟨"obstruction_type", 1, true, fun (x : Genie.Unit) => x.obstruction_type, fun x y => { x with obstruction_type := y }⟩,
      ⟨"obstruction_class", 1, true, fun (x : Genie.Unit) => x.obstruction_class, fun x y => { x with obstruction_class := y }⟩,
      ⟨"trait", 1, true, fun (x : Genie.Unit) => x.trait, fun x y => { x with trait := y }⟩,
      ⟨"civilization", 1, true, fun (x : Genie.Unit) => x.civilization, fun x y => { x with civilization := y }⟩,
      ⟨"nothing", 2, true, fun (x : Genie.Unit) => x.nothing, fun x y => { x with nothing := y }⟩,
      ⟨"selection_effect", 1, true, fun (x : Genie.Unit) => x.selection_effect, fun x y => { x with selection_effect := y }⟩,
      ⟨"editor_selection_colour", 1, true, fun (x : Genie.Unit) => x.editor_selection_colour, fun x y => { x with editor_selection_colour := y }⟩,
      ⟨"scenario_triggers_1", 4, true, fun (x : Genie.Unit) => x.scenario_triggers_1, fun x y => { x with scenario_triggers_1 := y }⟩,
      ⟨"scenario_triggers_2", 4, true, fun (x : Genie.Unit) => x.scenario_triggers_2, fun x y => { x with scenario_triggers_2 := y }⟩,
      ⟨"selection_sound", 2, true, fun (x : Genie.Unit) => x.selection_sound, fun x y => { x with selection_sound := y }⟩,
      ⟨"dying_sound", 2, true, fun (x : Genie.Unit) => x.dying_sound, fun x y => { x with dying_sound := y }⟩,
      ⟨"wwise_train_sound_id", 4, true, fun (x : Genie.Unit) => x.wwise_train_sound_id, fun x y => { x with wwise_train_sound_id := y }⟩,
      ⟨"wwise_damage_sound_id", 4, true, fun (x : Genie.Unit) => x.wwise_damage_sound_id, fun x y => { x with wwise_damage_sound_id := y }⟩,
      ⟨"wwise_selection_sound_id", 4, true, fun (x : Genie.Unit) => x.wwise_selection_sound_id, fun x y => { x with wwise_selection_sound_id := y }⟩,
      ⟨"wwise_dying_sound_id", 4, true, fun (x : Genie.Unit) => x.wwise_dying_sound_id, fun x y => { x with wwise_dying_sound_id := y }⟩,
      ⟨"old_attack_reaction", 1, false, fun (x : Genie.Unit) => x.old_attack_reaction, fun x y => { x with old_attack_reaction := y }⟩,
      ⟨"convert_terrain", 1, false, fun (x : Genie.Unit) => x.convert_terrain, fun x y => { x with convert_terrain := y }⟩,
      ⟨"copy_id", 2, true, fun (x : Genie.Unit) => x.copy_id, fun x y => { x with copy_id := y }⟩,
      ⟨"base_id", 2, true, fun (x : Genie.Unit) => x.base_id, fun x y => { x with base_id := y }⟩]
  | .record .Civ => [
      ⟨"player_type", 1, false, fun (x : Genie.Civ) => x.player_type, fun x y => { x with player_type := y }⟩,
      ⟨"tech_tree_id", 2, true, fun (x : Genie.Civ) => x.tech_tree_id, fun x y => { x with tech_tree_id := y }⟩,
      ⟨"team_bonus_id", 2, true, fun (x : Genie.Civ) => x.team_bonus_id, fun x y => { x with team_bonus_id := y }⟩,
      ⟨"icon_set", 1, false, fun (x : Genie.Civ) => x.icon_set, fun x y => { x with icon_set := y }⟩]
  | .file => [
      ⟨"time_slice", 4, true, fun (x : Genie.DatFile) => x.time_slice, fun x y => { x with time_slice := y }⟩,
      ⟨"unit_kill_rate", 4, true, fun (x : Genie.DatFile) => x.unit_kill_rate, fun x y => { x with unit_kill_rate := y }⟩,
      ⟨"unit_kill_total", 4, true, fun (x : Genie.DatFile) => x.unit_kill_total, fun x y => { x with unit_kill_total := y }⟩,
      ⟨"unit_hit_point_rate", 4, true, fun (x : Genie.DatFile) => x.unit_hit_point_rate, fun x y => { x with unit_hit_point_rate := y }⟩,
      ⟨"unit_hit_point_total", 4, true, fun (x : Genie.DatFile) => x.unit_hit_point_total, fun x y => { x with unit_hit_point_total := y }⟩,
      ⟨"razing_kill_rate", 4, true, fun (x : Genie.DatFile) => x.razing_kill_rate, fun x y => { x with razing_kill_rate := y }⟩,
      ⟨"razing_kill_total", 4, true, fun (x : Genie.DatFile) => x.razing_kill_total, fun x y => { x with razing_kill_total := y }⟩]
  | _ => []

/-- The float fields that a file of version `v` stores. -/
def floatFields (v : Version) : (n : Node) → List (FloatField n.Obj)
  | .record .EffectCommand => [
      ⟨"d", fun (x : Genie.EffectCommand) => some x.d, fun x y => { x with d := y }⟩]
  | .record .Graphic => [
      ⟨"speed_multiplier", fun (x : Genie.Graphic) => some x.speed_multiplier, fun x y => { x with speed_multiplier := y }⟩,
      ⟨"frame_duration", fun (x : Genie.Graphic) => some x.frame_duration, fun x y => { x with frame_duration := y }⟩,
      ⟨"replay_delay", fun (x : Genie.Graphic) => some x.replay_delay, fun x y => { x with replay_delay := y }⟩]
  | .record .Terrain => [
      ⟨"interval", fun (x : Genie.Terrain) => some x.interval, fun x y => { x with interval := y }⟩,
      ⟨"pause_between_loops", fun (x : Genie.Terrain) => some x.pause_between_loops, fun x y => { x with pause_between_loops := y }⟩,
      ⟨"animate_last", fun (x : Genie.Terrain) => some x.animate_last, fun x y => { x with animate_last := y }⟩]
  | .record .TerrainBlock => [
      ⟨"map_min_x", fun (x : Genie.TerrainBlock) => some x.map_min_x, fun x y => { x with map_min_x := y }⟩,
      ⟨"map_min_y", fun (x : Genie.TerrainBlock) => some x.map_min_y, fun x y => { x with map_min_y := y }⟩,
      ⟨"map_max_x", fun (x : Genie.TerrainBlock) => some x.map_max_x, fun x y => { x with map_max_x := y }⟩,
      ⟨"map_max_y", fun (x : Genie.TerrainBlock) => some x.map_max_y, fun x y => { x with map_max_y := y }⟩,
      ⟨"map_max_x_plus_1", fun (x : Genie.TerrainBlock) => some x.map_max_x_plus_1, fun x y => { x with map_max_x_plus_1 := y }⟩,
      ⟨"map_max_y_plus_1", fun (x : Genie.TerrainBlock) => some x.map_max_y_plus_1, fun x y => { x with map_max_y_plus_1 := y }⟩]
  | .record .ResourceStorage => [
      ⟨"amount", fun (x : Genie.ResourceStorage) => some x.amount, fun x y => { x with amount := y }⟩]
  | .record .DeadFish => [
      ⟨"rotation_speed", fun (x : Genie.DeadFish) => some x.rotation_speed, fun x y => { x with rotation_speed := y }⟩,
      ⟨"tracking_unit_density", fun (x : Genie.DeadFish) => some x.tracking_unit_density, fun x y => { x with tracking_unit_density := y }⟩,
      ⟨"turn_radius", fun (x : Genie.DeadFish) => some x.turn_radius, fun x y => { x with turn_radius := y }⟩,
      ⟨"turn_radius_speed", fun (x : Genie.DeadFish) => some x.turn_radius_speed, fun x y => { x with turn_radius_speed := y }⟩,
      ⟨"max_yaw_per_second_moving", fun (x : Genie.DeadFish) => some x.max_yaw_per_second_moving, fun x y => { x with max_yaw_per_second_moving := y }⟩,
      ⟨"stationary_yaw_revolution_time", fun (x : Genie.DeadFish) => some x.stationary_yaw_revolution_time, fun x y => { x with stationary_yaw_revolution_time := y }⟩,
      ⟨"max_yaw_per_second_stationary", fun (x : Genie.DeadFish) => some x.max_yaw_per_second_stationary, fun x y => { x with max_yaw_per_second_stationary := y }⟩,
      ⟨"min_collision_size_multiplier", fun (x : Genie.DeadFish) => some x.min_collision_size_multiplier, fun x y => { x with min_collision_size_multiplier := y }⟩]
  | .record .Task => [
      ⟨"work_value_1", fun (x : Genie.Task) => some x.work_value_1, fun x y => { x with work_value_1 := y }⟩,
      ⟨"work_value_2", fun (x : Genie.Task) => some x.work_value_2, fun x y => { x with work_value_2 := y }⟩,
      ⟨"work_range", fun (x : Genie.Task) => some x.work_range, fun x y => { x with work_range := y }⟩,
      ⟨"search_wait_time", fun (x : Genie.Task) => some x.search_wait_time, fun x y => { x with search_wait_time := y }⟩]
  | .record .Bird => [
      ⟨"search_radius", fun (x : Genie.Bird) => some x.search_radius, fun x y => { x with search_radius := y }⟩,
      ⟨"work_rate", fun (x : Genie.Bird) => some x.work_rate, fun x y => { x with work_rate := y }⟩]
  | .record .Type50 => [
      ⟨"bonus_damage_resistance", fun (x : Genie.Type50) => some x.bonus_damage_resistance, fun x y => { x with bonus_damage_resistance := y }⟩,
      ⟨"max_range", fun (x : Genie.Type50) => some x.max_range, fun x y => { x with max_range := y }⟩,
      ⟨"blast_width", fun (x : Genie.Type50) => some x.blast_width, fun x y => { x with blast_width := y }⟩,
      ⟨"reload_time", fun (x : Genie.Type50) => some x.reload_time, fun x y => { x with reload_time := y }⟩,
      ⟨"min_range", fun (x : Genie.Type50) => some x.min_range, fun x y => { x with min_range := y }⟩,
      ⟨"accuracy_dispersion", fun (x : Genie.Type50) => some x.accuracy_dispersion, fun x y => { x with accuracy_dispersion := y }⟩,
      ⟨"displayed_range", fun (x : Genie.Type50) => some x.displayed_range, fun x y => { x with displayed_range := y }⟩,
      ⟨"displayed_reload_time", fun (x : Genie.Type50) => some x.displayed_reload_time, fun x y => { x with displayed_reload_time := y }⟩,
      ⟨"blast_damage", fun (x : Genie.Type50) => some x.blast_damage, fun x y => { x with blast_damage := y }⟩] ++
    if 84 ≤ v.num then [
      ⟨"damage_reflection", fun (x : Genie.Type50) => some x.damage_reflection, fun x y => { x with damage_reflection := y }⟩,
      ⟨"friendly_fire_damage", fun (x : Genie.Type50) => some x.friendly_fire_damage, fun x y => { x with friendly_fire_damage := y }⟩,
      ⟨"garrison_firepower", fun (x : Genie.Type50) => some x.garrison_firepower, fun x y => { x with garrison_firepower := y }⟩] else []
  | .record .Projectile => [
      ⟨"projectile_arc", fun (x : Genie.Projectile) => some x.projectile_arc, fun x y => { x with projectile_arc := y }⟩]
  | .record .Creatable => [
      ⟨"rear_attack_modifier", fun (x : Genie.Creatable) => some x.rear_attack_modifier, fun x y => { x with rear_attack_modifier := y }⟩,
      ⟨"flank_attack_modifier", fun (x : Genie.Creatable) => some x.flank_attack_modifier, fun x y => { x with flank_attack_modifier := y }⟩,
      ⟨"max_charge", fun (x : Genie.Creatable) => some x.max_charge, fun x y => { x with max_charge := y }⟩,
      ⟨"recharge_rate", fun (x : Genie.Creatable) => some x.recharge_rate, fun x y => { x with recharge_rate := y }⟩,
      ⟨"min_conversion_time_mod", fun (x : Genie.Creatable) => some x.min_conversion_time_mod, fun x y => { x with min_conversion_time_mod := y }⟩,
      ⟨"max_conversion_time_mod", fun (x : Genie.Creatable) => some x.max_conversion_time_mod, fun x y => { x with max_conversion_time_mod := y }⟩,
      ⟨"conversion_chance_mod", fun (x : Genie.Creatable) => some x.conversion_chance_mod, fun x y => { x with conversion_chance_mod := y }⟩,
      ⟨"total_projectiles", fun (x : Genie.Creatable) => some x.total_projectiles, fun x y => { x with total_projectiles := y }⟩] ++
    if 84 ≤ v.num then [
      ⟨"invulnerability_level", fun (x : Genie.Creatable) => some x.invulnerability_level, fun x y => { x with invulnerability_level := y }⟩] else []
  | .record .BuildingAnnex => [
      ⟨"misplacement_x", fun (x : Genie.BuildingAnnex) => some x.misplacement_x, fun x y => { x with misplacement_x := y }⟩,
      ⟨"misplacement_y", fun (x : Genie.BuildingAnnex) => some x.misplacement_y, fun x y => { x with misplacement_y := y }⟩]
  | .record .Building => [
      ⟨"garrison_heal_rate", fun (x : Genie.Building) => some x.garrison_heal_rate, fun x y => { x with garrison_heal_rate := y }⟩,
      ⟨"garrison_repair_rate", fun (x : Genie.Building) => some x.garrison_repair_rate, fun x y => { x with garrison_repair_rate := y }⟩]
  | .record .Unit => [
      ⟨"line_of_sight", fun (x : Genie.Unit) => some x.line_of_sight, fun x y => { x with line_of_sight := y }⟩,
      ⟨"collision_size_x", fun (x : Genie.Unit) => some x.collision_size_x, fun x y => { x with collision_size_x := y }⟩,
      ⟨"collision_size_y", fun (x : Genie.Unit) => some x.collision_size_y, fun x y => { x with collision_size_y := y }⟩,
      ⟨"collision_size_z", fun (x : Genie.Unit) => some x.collision_size_z, fun x y => { x with collision_size_z := y }⟩,
      ⟨"resource_decay", fun (x : Genie.Unit) => some x.resource_decay, fun x y => { x with resource_decay := y }⟩,
      ⟨"multiple_attribute_mode", fun (x : Genie.Unit) => some x.multiple_attribute_mode, fun x y => { x with multiple_attribute_mode := y }⟩,
      ⟨"outline_size_x", fun (x : Genie.Unit) => some x.outline_size_x, fun x y => { x with outline_size_x := y }⟩,
      ⟨"outline_size_y", fun (x : Genie.Unit) => some x.outline_size_y, fun x y => { x with outline_size_y := y }⟩,
      ⟨"outline_size_z", fun (x : Genie.Unit) => some x.outline_size_z, fun x y => { x with outline_size_z := y }⟩,
      ⟨"speed", fun (x : Genie.Unit) => x.speed, fun x y => { x with speed := some y }⟩]
  | _ => []

/-- The text fields. -/
def textFields (v : Version) : (n : Node) → List (TextField n.Obj)
  | .record .Effect => [
      ⟨"name", fun (x : Genie.Effect) => x.name, fun x y => { x with name := y }⟩]
  | .record .SoundItem => [
      ⟨"filename", fun (x : Genie.SoundItem) => x.filename, fun x y => { x with filename := y }⟩]
  | .record .Graphic => [
      ⟨"name", fun (x : Genie.Graphic) => x.name, fun x y => { x with name := y }⟩,
      ⟨"file_name", fun (x : Genie.Graphic) => x.file_name, fun x y => { x with file_name := y }⟩,
      ⟨"particle_effect_name", fun (x : Genie.Graphic) => x.particle_effect_name, fun x y => { x with particle_effect_name := y }⟩]
  | .record .Terrain => [
      ⟨"name", fun (x : Genie.Terrain) => x.name, fun x y => { x with name := y }⟩,
      ⟨"name_2", fun (x : Genie.Terrain) => x.name_2, fun x y => { x with name_2 := y }⟩,
      ⟨"overlay_mask_name", fun (x : Genie.Terrain) => x.overlay_mask_name, fun x y => { x with overlay_mask_name := y }⟩]
  | .record .Tech => [
      ⟨"name", fun (x : Genie.Tech) => x.name, fun x y => { x with name := y }⟩]
  | .record .Unit => [
      ⟨"name", fun (x : Genie.Unit) => x.name, fun x y => { x with name := y }⟩]
  | .record .Civ => [
      ⟨"name", fun (x : Genie.Civ) => x.name, fun x y => { x with name := y }⟩]
  | _ => []

/-- The lists of fixed length, with that length, except for those in struct-packed blocks. -/
def fixedLists (v : Version) : (n : Node) → List (Nat × ListField n.Obj)
  | .record .Graphic => [
      (4, ⟨"coordinates", Int, fun (x : Genie.Graphic) => x.coordinates, fun x l => { x with coordinates := l }, i16, IsI16⟩)]
  | .record .Terrain => [
      (3, ⟨"colors", Int, fun (x : Genie.Terrain) => x.colors, fun x l => { x with colors := l }, u8, IsU8⟩),
      (2, ⟨"cliff_colors", Int, fun (x : Genie.Terrain) => x.cliff_colors, fun x l => { x with cliff_colors := l }, u8, IsU8⟩),
      (19, ⟨"frame_data", Genie.FrameData, fun (x : Genie.Terrain) => x.frame_data, fun x l => { x with frame_data := l }, FrameData.layout v, FrameData.WF v⟩),
      (2, ⟨"terrain_dimensions", Int, fun (x : Genie.Terrain) => x.terrain_dimensions, fun x l => { x with terrain_dimensions := l }, i16, IsI16⟩),
      (30, ⟨"terrain_unit_masked_density", Int, fun (x : Genie.Terrain) => x.terrain_unit_masked_density, fun x l => { x with terrain_unit_masked_density := l }, i16, IsI16⟩),
      (30, ⟨"terrain_unit_id", Int, fun (x : Genie.Terrain) => x.terrain_unit_id, fun x l => { x with terrain_unit_id := l }, i16, IsI16⟩),
      (30, ⟨"terrain_unit_density", Int, fun (x : Genie.Terrain) => x.terrain_unit_density, fun x l => { x with terrain_unit_density := l }, i16, IsI16⟩),
      (30, ⟨"terrain_unit_centering", Int, fun (x : Genie.Terrain) => x.terrain_unit_centering, fun x l => { x with terrain_unit_centering := l }, u8, IsU8⟩)]
  | .record .TerrainBlock => [
      (19, ⟨"tile_sizes", Genie.TileSize, fun (x : Genie.TerrainBlock) => x.tile_sizes, fun x l => { x with tile_sizes := l }, TileSize.layout v, TileSize.WF v⟩),
      (200, ⟨"terrains", Genie.Terrain, fun (x : Genie.TerrainBlock) => x.terrains, fun x l => { x with terrains := l }, Terrain.layout v, Terrain.WF v⟩)]
  | .record .Tech => [
      (6, ⟨"required_techs", Int, fun (x : Genie.Tech) => x.required_techs, fun x l => { x with required_techs := l }, i16, IsI16⟩),
      (3, ⟨"resource_costs", Genie.ResearchResourceCost, fun (x : Genie.Tech) => x.resource_costs, fun x l => { x with resource_costs := l }, ResearchResourceCost.layout v, ResearchResourceCost.WF v⟩)]
  | .record .Common => [
      (10, ⟨"unit_research", Int, fun (x : Genie.Common) => x.unit_research, fun x l => { x with unit_research := l }, i32, IsI32⟩),
      (10, ⟨"mode", Int, fun (x : Genie.Common) => x.mode, fun x l => { x with mode := l }, i32, IsI32⟩)]
  | .record .TechTreeAge => [
      (10, ⟨"buildings_per_zone", Int, fun (x : Genie.TechTreeAge) => x.buildings_per_zone, fun x l => { x with buildings_per_zone := l }, u8, IsU8⟩),
      (10, ⟨"group_length_per_zone", Int, fun (x : Genie.TechTreeAge) => x.group_length_per_zone, fun x l => { x with group_length_per_zone := l }, u8, IsU8⟩)]
  | .record .BuildingConnection => [
      (5, ⟨"units_techs_total", Int, fun (x : Genie.BuildingConnection) => x.units_techs_total, fun x l => { x with units_techs_total := l }, u8, IsU8⟩),
      (5, ⟨"units_techs_first", Int, fun (x : Genie.BuildingConnection) => x.units_techs_first, fun x l => { x with units_techs_first := l }, u8, IsU8⟩)]
  | .record .Bird => [
      ] ++
    if v.num < 78 then [
      (3, ⟨"drop_sites", Int, fun (x : Genie.Bird) => x.drop_sites, fun x l => { x with drop_sites := l }, i16, IsI16⟩)] else []
  | .record .Type50 => [
      (3, ⟨"graphic_displacement", PyFloat, fun (x : Genie.Type50) => x.graphic_displacement, fun x l => { x with graphic_displacement := l }, f32, IsF32⟩)]
  | .record .Creatable => [
      (3, ⟨"resource_costs", Genie.ResourceCost, fun (x : Genie.Creatable) => x.resource_costs, fun x l => { x with resource_costs := l }, ResourceCost.layout v, ResourceCost.WF v⟩)]
  | .record .Building => [
      (4, ⟨"annexes", Genie.BuildingAnnex, fun (x : Genie.Building) => x.annexes, fun x l => { x with annexes := l }, BuildingAnnex.layout v, BuildingAnnex.WF v⟩)]
  | .record .Unit => [
      (3, ⟨"resource_storages", Genie.ResourceStorage, fun (x : Genie.Unit) => x.resource_storages, fun x l => { x with resource_storages := l }, ResourceStorage.layout v, ResourceStorage.WF v⟩)]
  | _ => []

/-- The lists whose length is written in front of them, with the largest length.  (Without the lists of a random map, and the two
lists of random maps and the terrain tables, which have to be edited together.) -/
def countedLists (v : Version) : (n : Node) → List (Nat × ListField n.Obj)
  | .record .Effect => [
      (32767, ⟨"effect_commands", Genie.EffectCommand, fun (x : Genie.Effect) => x.effect_commands, fun x l => { x with effect_commands := l }, EffectCommand.layout v, EffectCommand.WF v⟩)]
  | .record .Sound => [
      (32767, ⟨"items", Genie.SoundItem, fun (x : Genie.Sound) => x.items, fun x l => { x with items := l }, SoundItem.layout v, SoundItem.WF v⟩)]
  | .record .Graphic => [
      (32767, ⟨"deltas", Genie.GraphicDelta, fun (x : Genie.Graphic) => x.deltas, fun x l => { x with deltas := l }, GraphicDelta.layout v, GraphicDelta.WF v⟩)]
  | .record .Tech => [
      ] ++
    if 88 ≤ v.num then [
      (32767, ⟨"research_locations", Genie.ResearchLocation, fun (x : Genie.Tech) => x.research_locations, fun x l => { x with research_locations := l }, ResearchLocation.layout v, ResearchLocation.WF v⟩)] else []
  | .record .TechTreeAge => [
      (255, ⟨"buildings", Int, fun (x : Genie.TechTreeAge) => x.buildings, fun x l => { x with buildings := l }, i32, IsI32⟩),
      (255, ⟨"units", Int, fun (x : Genie.TechTreeAge) => x.units, fun x l => { x with units := l }, i32, IsI32⟩),
      (255, ⟨"techs", Int, fun (x : Genie.TechTreeAge) => x.techs, fun x l => { x with techs := l }, i32, IsI32⟩)]
  | .record .BuildingConnection => [
      (255, ⟨"buildings", Int, fun (x : Genie.BuildingConnection) => x.buildings, fun x l => { x with buildings := l }, i32, IsI32⟩),
      (255, ⟨"units", Int, fun (x : Genie.BuildingConnection) => x.units, fun x l => { x with units := l }, i32, IsI32⟩),
      (255, ⟨"techs", Int, fun (x : Genie.BuildingConnection) => x.techs, fun x l => { x with techs := l }, i32, IsI32⟩)]
  | .record .UnitConnection => [
      (255, ⟨"units", Int, fun (x : Genie.UnitConnection) => x.units, fun x l => { x with units := l }, i32, IsI32⟩)]
  | .record .ResearchConnection => [
      (255, ⟨"buildings", Int, fun (x : Genie.ResearchConnection) => x.buildings, fun x l => { x with buildings := l }, i32, IsI32⟩),
      (255, ⟨"units", Int, fun (x : Genie.ResearchConnection) => x.units, fun x l => { x with units := l }, i32, IsI32⟩),
      (255, ⟨"techs", Int, fun (x : Genie.ResearchConnection) => x.techs, fun x l => { x with techs := l }, i32, IsI32⟩)]
  | .record .TechTree => [
      (255, ⟨"tech_tree_ages", Genie.TechTreeAge, fun (x : Genie.TechTree) => x.tech_tree_ages, fun x l => { x with tech_tree_ages := l }, TechTreeAge.layout v, TechTreeAge.WF v⟩),
      (255, ⟨"building_connections", Genie.BuildingConnection, fun (x : Genie.TechTree) => x.building_connections, fun x l => { x with building_connections := l }, BuildingConnection.layout v, BuildingConnection.WF v⟩),
      (255, ⟨"unit_connections", Genie.UnitConnection, fun (x : Genie.TechTree) => x.unit_connections, fun x l => { x with unit_connections := l }, UnitConnection.layout v, UnitConnection.WF v⟩),
      (255, ⟨"research_connections", Genie.ResearchConnection, fun (x : Genie.TechTree) => x.research_connections, fun x l => { x with research_connections := l }, ResearchConnection.layout v, ResearchConnection.WF v⟩)]
  | .record .Bird => [
      (32767, ⟨"tasks", Genie.Task, fun (x : Genie.Bird) => x.tasks, fun x l => { x with tasks := l }, Task.layout v, Task.WF v⟩)] ++
    if 78 ≤ v.num then [
      (32767, ⟨"drop_sites", Int, fun (x : Genie.Bird) => x.drop_sites, fun x l => { x with drop_sites := l }, i16, IsI16⟩)] else []
  | .record .Type50 => [
      (32767, ⟨"attacks", Genie.AttackOrArmor, fun (x : Genie.Type50) => x.attacks, fun x l => { x with attacks := l }, AttackOrArmor.layout v, AttackOrArmor.WF v⟩),
      (32767, ⟨"armours", Genie.AttackOrArmor, fun (x : Genie.Type50) => x.armours, fun x l => { x with armours := l }, AttackOrArmor.layout v, AttackOrArmor.WF v⟩)]
  | .record .Creatable => [
      ] ++
    if 88 ≤ v.num then [
      (32767, ⟨"train_locations", Genie.TrainLocation, fun (x : Genie.Creatable) => x.train_locations, fun x l => { x with train_locations := l }, TrainLocation.layout v, TrainLocation.WF v⟩)] else []
  | .record .Unit => [
      (255, ⟨"damage_graphics", Genie.DamageGraphic, fun (x : Genie.Unit) => x.damage_graphics, fun x l => { x with damage_graphics := l }, DamageGraphic.layout v, DamageGraphic.WF v⟩)]
  | .record .Civ => [
      (32767, ⟨"resources", PyFloat, fun (x : Genie.Civ) => x.resources, fun x l => { x with resources := l }, f32, IsF32⟩)]
  | .file => [
      (32767, ⟨"player_colours", Genie.PlayerColour, fun (x : Genie.DatFile) => x.player_colours, fun x l => { x with player_colours := l }, PlayerColour.layout v, PlayerColour.WF v⟩),
      (32767, ⟨"sounds", Genie.Sound, fun (x : Genie.DatFile) => x.sounds, fun x l => { x with sounds := l }, Sound.layout v, Sound.WF v⟩),
      (2147483647, ⟨"effects", Genie.Effect, fun (x : Genie.DatFile) => x.effects, fun x l => { x with effects := l }, Effect.layout v, Effect.WF v⟩),
      (2147483647, ⟨"unit_headers", Genie.UnitHeaders, fun (x : Genie.DatFile) => x.unit_headers, fun x l => { x with unit_headers := l }, UnitHeaders.layout v, UnitHeaders.WF v⟩),
      (32767, ⟨"civs", Genie.Civ, fun (x : Genie.DatFile) => x.civs, fun x l => { x with civs := l }, Civ.layout v, Civ.WF v⟩),
      (32767, ⟨"techs", Genie.Tech, fun (x : Genie.DatFile) => x.techs, fun x l => { x with techs := l }, Tech.layout v, Tech.WF v⟩)]
  | _ => []

/-- The lists with empty slots, with the largest length. -/
def slotLists (v : Version) : (n : Node) → List (Nat × ListField n.Obj)
  | .record .Civ => [
      (32767, ⟨"units", (Option Genie.Unit), fun (x : Genie.Civ) => x.units, fun x l => { x with units := l }, fun o => eachPresent (Unit.layout v) [o], IfSome (Unit.WF v)⟩)]
  | .file => [
      (32767, ⟨"graphics", (Option Genie.Graphic), fun (x : Genie.DatFile) => x.graphics, fun x l => { x with graphics := l }, fun o => eachPresent (Graphic.layout v) [o], IfSome (Graphic.WF v)⟩)]
  | _ => []

end Node

end Genie
