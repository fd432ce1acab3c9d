import Verif.Model.Datfile
/-!
# Files that end after a part

The parts of a file that follow its terrain block, and what is left of an object without them.
-/

namespace Genie

/-- The parts of a file after the terrain block, in file order; `rest` is the seven integers and the tech tree. -/
inductive LaterPart where
  | random_maps | effects | unit_headers | civs | techs | rest
deriving DecidableEq

/-- A tech tree without anything in it. -/
def TechTree.zero : TechTree :=
  { total_unit_tech_groups := 0, tech_tree_ages := [], building_connections := [], unit_connections := [], research_connections := [] }

/-- The object with this part, and all that follow it, empty and zero. -/
def DatFile.without (d : DatFile) : LaterPart → DatFile
  | .rest => { d with
      time_slice := 0, unit_kill_rate := 0, unit_kill_total := 0, unit_hit_point_rate := 0, unit_hit_point_total := 0,
      razing_kill_rate := 0, razing_kill_total := 0, tech_tree := TechTree.zero }
  | .techs => { d with
      techs := [], time_slice := 0, unit_kill_rate := 0, unit_kill_total := 0, unit_hit_point_rate := 0, unit_hit_point_total := 0,
      razing_kill_rate := 0, razing_kill_total := 0, tech_tree := TechTree.zero }
  | .civs => { d with
      civs := [], techs := [], time_slice := 0, unit_kill_rate := 0, unit_kill_total := 0, unit_hit_point_rate := 0, unit_hit_point_total := 0,
      razing_kill_rate := 0, razing_kill_total := 0, tech_tree := TechTree.zero }
  | .unit_headers => { d with
      unit_headers := [], civs := [], techs := [], time_slice := 0, unit_kill_rate := 0, unit_kill_total := 0, unit_hit_point_rate := 0, unit_hit_point_total := 0,
      razing_kill_rate := 0, razing_kill_total := 0, tech_tree := TechTree.zero }
  | .effects => { d with
      effects := [], unit_headers := [], civs := [], techs := [], time_slice := 0, unit_kill_rate := 0, unit_kill_total := 0, unit_hit_point_rate := 0, unit_hit_point_total := 0,
      razing_kill_rate := 0, razing_kill_total := 0, tech_tree := TechTree.zero }
  | .random_maps => { d with
      random_maps := { random_maps_ptr := 0, map_info_1 := [], map_info_2 := [] }, effects := [], unit_headers := [], civs := [], techs := [], time_slice := 0, unit_kill_rate := 0, unit_kill_total := 0, unit_hit_point_rate := 0, unit_hit_point_total := 0,
      razing_kill_rate := 0, razing_kill_total := 0, tech_tree := TechTree.zero }

/-- Number of bytes of the encoding of these empty parts (all of them zero): counts of 4, 4, 2, 2 bytes, seven integers of 4 bytes and 8
bytes of tech tree; the random maps have a count and a pointer. -/
def LaterPart.zeros : LaterPart → Nat
  | .rest => 36
  | .techs => 38
  | .civs => 40
  | .unit_headers => 44
  | .effects => 48
  | .random_maps => 56

end Genie
