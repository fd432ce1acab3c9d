import Verif.Spec.ClassLayout
/-!
# What the writers refuse, besides values out of range
-/

namespace Genie

/-- The exceptions of a single value: integer, count or text length out of range (`OverflowError`, or `struct.error` in a
struct-packed block, which also has its number of values checked), lone surrogate in a text. -/
def ValueErr (e : PyErr) : Prop := e = .overflowError ∨ e = .structError ∨ e = .unicodeEncodeError

/-- The two lists of a terrain restriction differ in length. -/
def TerrainRestriction.Mismatched (x : TerrainRestriction) : Prop :=
  x.passable_buildable_dmg_multiplier.length ≠ x.terrain_pass_graphics.length

/-- The two lists of the random maps differ in length. -/
def RandomMaps.Mismatched (x : RandomMaps) : Prop := x.map_info_1.length ≠ x.map_info_2.length

/-- Somewhere in the file two lists differ in length that must not. -/
def DatFile.Mismatched (d : DatFile) : Prop :=
  d.float_ptr_terrain_tables.length ≠ d.terrain_pass_graphic_pointers.length ∨
  d.terrain_pass_graphic_pointers.length ≠ d.terrain_restrictions.length ∨
  (∃ r ∈ d.terrain_restrictions, r.Mismatched) ∨ d.random_maps.Mismatched

/-- Before 8.8 a creatable needs a train location. -/
def Creatable.Homeless (v : Version) (x : Creatable) : Prop := v.num < 88 ∧ x.train_locations = []

/-- The unit's type calls for a creatable part, and it has no train location. -/
def Unit.Homeless (v : Version) (x : Unit) : Prop :=
  x.type ≠ 90 ∧ 70 ≤ x.type ∧ ∃ c, x.creatable = some c ∧ c.Homeless v

/-- A unit of the civilization is so. -/
def Civ.Homeless (v : Version) (x : Civ) : Prop := ∃ u, some u ∈ x.units ∧ u.Homeless v

/-- A unit of the file is so. -/
def DatFile.Homeless (v : Version) (d : DatFile) : Prop := ∃ c ∈ d.civs, c.Homeless v

/-- The version text is not a member of `Version`. -/
def DatFile.UnknownVersion (d : DatFile) : Prop := ∀ v : Version, v.value ≠ d.version

namespace RecordClass

/-- Lists differ in length that must not (only two classes check that). -/
def Mismatched : (c : RecordClass) → c.Obj → Prop
  | .TerrainRestriction _, x => Genie.TerrainRestriction.Mismatched x
  | .RandomMaps, x => Genie.RandomMaps.Mismatched x
  | _, _ => False

/-- A train location is missing. -/
def Homeless : (c : RecordClass) → Version → c.Obj → Prop
  | .Creatable, v, x => Genie.Creatable.Homeless v x
  | .Unit, v, x => Genie.Unit.Homeless v x
  | .Civ, v, x => Genie.Civ.Homeless v x
  | _, _, _ => False

end RecordClass
end Genie
