import Verif.Spec.Classes
/-!
# The counted lists

Lists whose number of elements is written in front of them: the largest number that can be written, and the actual number
(generated by `tools/gen_counts.py`).
-/

namespace Genie.RecordClass

/-- The counted lists of a record (not of the records in it). -/
def counted : (c : RecordClass) → Version → c.Obj → List (Nat × Nat)
  | .Effect, _, (x : Genie.Effect) => [(32767, x.effect_commands.length)]
  | .Sound, _, (x : Genie.Sound) => [(32767, x.items.length)]
  | .Graphic, _, (x : Genie.Graphic) => [(32767, x.deltas.length)]
  | .RandomMaps, _, (x : Genie.RandomMaps) => [(4294967295, x.map_info_1.length)]
  | .Tech, v, (x : Genie.Tech) => if 88 ≤ v.num then [(32767, x.research_locations.length)] else []
  | .TechTreeAge, _, (x : Genie.TechTreeAge) => [(255, x.buildings.length), (255, x.units.length), (255, x.techs.length)]
  | .BuildingConnection, _, (x : Genie.BuildingConnection) => [(255, x.buildings.length), (255, x.units.length), (255, x.techs.length)]
  | .UnitConnection, _, (x : Genie.UnitConnection) => [(255, x.units.length)]
  | .ResearchConnection, _, (x : Genie.ResearchConnection) => [(255, x.buildings.length), (255, x.units.length), (255, x.techs.length)]
  | .TechTree, _, (x : Genie.TechTree) => [(255, x.tech_tree_ages.length), (255, x.building_connections.length), (255, x.unit_connections.length), (255, x.research_connections.length)]
  | .Bird, v, (x : Genie.Bird) => (32767, x.tasks.length) :: if 78 ≤ v.num then [(32767, x.drop_sites.length)] else []
  | .Type50, _, (x : Genie.Type50) => [(32767, x.attacks.length), (32767, x.armours.length)]
  | .Creatable, v, (x : Genie.Creatable) => if 88 ≤ v.num then [(32767, x.train_locations.length)] else []
  | .Unit, _, (x : Genie.Unit) => [(255, x.damage_graphics.length)]
  | .UnitHeaders, _, (x : Genie.UnitHeaders) =>
    if x.exists_ = 0 then [] else match x.task_list with | none => [] | some tasks => [(32767, tasks.length)]
  | .Civ, _, (x : Genie.Civ) => [(32767, x.resources.length), (32767, x.units.length)]
  | _, _, _ => []

end Genie.RecordClass

namespace Genie

/-- The counted lists of a file. -/
def DatFile.counted (x : DatFile) : List (Nat × Nat) :=
  [(32767, x.terrain_restrictions.length),
   (32767, (x.terrain_restrictions.headD default).passable_buildable_dmg_multiplier.length),
   (32767, x.player_colours.length),
   (32767, x.sounds.length),
   (32767, x.graphics.length),
   (2147483647, x.effects.length),
   (2147483647, x.unit_headers.length),
   (32767, x.civs.length),
   (32767, x.techs.length)]

end Genie
