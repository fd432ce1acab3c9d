import Verif.Model.Datfile
/-!
# Tuples of the right length

The tuples that `struct.pack` spreads over its arguments (`*self.…`) and how long the annotations say they are.
-/

namespace Genie

/-- `/repo/src/genieutils/unit.py:503`. -/
def Creatable.Sized (self : Creatable) : Prop := self.projectile_spawning_area.length = 3

/-- `/repo/src/genieutils/unit.py:935`. -/
def Building.Sized (self : Building) : Prop := self.looting_table.length = 6

/-- `/repo/src/genieutils/unit.py:1057,1078-1080`. -/
def Unit.Sized (self : Unit) : Prop :=
  self.standing_graphic.length = 2 ∧ self.placement_side_terrain.length = 2 ∧ self.placement_terrain.length = 2 ∧
  self.clearance_size.length = 2 ∧ (∀ c, self.creatable = some c → c.Sized) ∧ (∀ b, self.building = some b → b.Sized)

/-- All units of a civilization. -/
def Civ.Sized (self : Civ) : Prop := ∀ u, some u ∈ self.units → u.Sized

/-- All units of a file. -/
def DatFile.Sized (self : DatFile) : Prop := ∀ c ∈ self.civs, c.Sized

end Genie
