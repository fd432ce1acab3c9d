import Verif.Spec.Edits
/-!
# The remaining lists

The lists in struct-packed blocks, and the terrain tables; together with the tables of `Spec/Edits.lean` these are all the lists
of a file whose elements are numbers.
-/

namespace Genie
open Layout

/-- Lists whose elements can be edited, but not their lengths (or not on their own). -/
def Node.otherLists (_v : Version) : (n : Node) → List (ListField n.Obj)
  | .record .Unit => [
      ⟨"standing_graphic", Int, fun (x : Genie.Unit) => x.standing_graphic, fun x l => { x with standing_graphic := l }, fun i => [.packed .h (.int i)], IsI16⟩,
      ⟨"placement_side_terrain", Int, fun (x : Genie.Unit) => x.placement_side_terrain, fun x l => { x with placement_side_terrain := l }, fun i => [.packed .h (.int i)], IsI16⟩,
      ⟨"placement_terrain", Int, fun (x : Genie.Unit) => x.placement_terrain, fun x l => { x with placement_terrain := l }, fun i => [.packed .h (.int i)], IsI16⟩,
      ⟨"clearance_size", PyFloat, fun (x : Genie.Unit) => x.clearance_size, fun x l => { x with clearance_size := l }, fun i => [.packed .f (.float i)], IsF32⟩]
  | .record .Creatable => [
      ⟨"projectile_spawning_area", PyFloat, fun (x : Genie.Creatable) => x.projectile_spawning_area, fun x l => { x with projectile_spawning_area := l }, fun i => [.packed .f (.float i)], IsF32⟩]
  | .record .Building => [
      ⟨"looting_table", Int, fun (x : Genie.Building) => x.looting_table, fun x l => { x with looting_table := l }, fun i => [.packed .b (.int i)], IsI8⟩]
  | .record (.TerrainRestriction _) => [
      ⟨"passable_buildable_dmg_multiplier", PyFloat, fun (x : Genie.TerrainRestriction) => x.passable_buildable_dmg_multiplier,
        fun x l => { x with passable_buildable_dmg_multiplier := l }, f32, IsF32⟩]
  | .file => [
      ⟨"float_ptr_terrain_tables", Int, fun (x : Genie.DatFile) => x.float_ptr_terrain_tables, fun x l => { x with float_ptr_terrain_tables := l }, i32, IsI32⟩,
      ⟨"terrain_pass_graphic_pointers", Int, fun (x : Genie.DatFile) => x.terrain_pass_graphic_pointers, fun x l => { x with terrain_pass_graphic_pointers := l }, i32, IsI32⟩]
  | _ => []

/-- All lists whose elements can be edited one at a time. -/
def Node.elemLists (v : Version) (n : Node) : List (ListField n.Obj) :=
  (n.fixedLists v).map (·.2) ++ (n.countedLists v).map (·.2) ++ n.otherLists v

end Genie
