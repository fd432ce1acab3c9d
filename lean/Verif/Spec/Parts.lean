import Verif.Spec.Versioned
import Verif.Spec.Api
/-!
# The optional parts of a unit
-/

namespace Genie

/-- The bytes `b` of an optional part: those that `w` gives if the unit's type calls for the part and it is there, none otherwise. -/
def PartBytes (called : Prop) (w : α → Py Bytes) (o : Option α) (b : Bytes) : Prop :=
  (∀ a, called → o = some a → w a = .ok b) ∧ (¬ called ∨ o = none → b = [])

/-- The unit types that call for each part. -/
def CallsSpeed (t : Int) : Prop := t ≠ 90 ∧ 20 ≤ t
def CallsDeadFish (t : Int) : Prop := t ≠ 90 ∧ 30 ≤ t
def CallsBird (t : Int) : Prop := t ≠ 90 ∧ 40 ≤ t
def CallsType50 (t : Int) : Prop := t ≠ 90 ∧ 50 ≤ t
def CallsProjectile (t : Int) : Prop := t = 60
def CallsCreatable (t : Int) : Prop := t ≠ 90 ∧ 70 ≤ t
def CallsBuilding (t : Int) : Prop := t = 80

/-- Two units that differ at most in parts that their type does not call for. -/
structure SameButUncalled (x y : Unit) : Prop where
  fields : { x with speed := none, dead_fish := none, bird := none, type_50 := none, projectile := none, creatable := none, building := none } =
    { y with speed := none, dead_fish := none, bird := none, type_50 := none, projectile := none, creatable := none, building := none }
  speed : CallsSpeed x.type → x.speed = y.speed
  dead_fish : CallsDeadFish x.type → x.dead_fish = y.dead_fish
  bird : CallsBird x.type → x.bird = y.bird
  type_50 : CallsType50 x.type → x.type_50 = y.type_50
  projectile : CallsProjectile x.type → x.projectile = y.projectile
  creatable : CallsCreatable x.type → x.creatable = y.creatable
  building : CallsBuilding x.type → x.building = y.building

/-- The unit without all its optional parts. -/
def Unit.bare (x : Unit) : Unit :=
  { x with speed := none, dead_fish := none, bird := none, type_50 := none, projectile := none, creatable := none, building := none }

end Genie
