import Verif.Model.HeapWrite
import Verif.Spec.Annotations
import Verif.Py.Json
/-!
# `==` on objects

Every class is `@dataclass(slots=True)`, which generates `__eq__` (the option `eq` is not switched off anywhere).  `a == b` compares the
fields that the class declares, in their order, if both are instances of the same class; lists and tuples compare element by element; numbers
compare by value, whatever their types.  Elements of lists and tuples that are the same object count as equal without being compared.
-/

namespace Genie
namespace W

/-- `dataclasses.fields(cls)`: the names, in the order of the class definitions in `/repo/src/genieutils` (`Verif/Spec/Annotations.lean`). -/
def classFields : List (PyStr × List PyStr) :=
  [(lit "EffectCommand", EffectCommand.annotations.map (·.1)),
   (lit "Effect", Effect.annotations.map (·.1)),
   (lit "SoundItem", SoundItem.annotations.map (·.1)),
   (lit "Sound", Sound.annotations.map (·.1)),
   (lit "PlayerColour", PlayerColour.annotations.map (·.1)),
   (lit "GraphicDelta", GraphicDelta.annotations.map (·.1)),
   (lit "GraphicAngleSound", GraphicAngleSound.annotations.map (·.1)),
   (lit "Graphic", Graphic.annotations.map (·.1)),
   (lit "TerrainPassGraphic", TerrainPassGraphic.annotations.map (·.1)),
   (lit "TerrainRestriction", TerrainRestriction.annotations.map (·.1)),
   (lit "FrameData", FrameData.annotations.map (·.1)),
   (lit "Terrain", Terrain.annotations.map (·.1)),
   (lit "TileSize", TileSize.annotations.map (·.1)),
   (lit "TerrainBlock", TerrainBlock.annotations.map (·.1)),
   (lit "MapUnit", MapUnit.annotations.map (·.1)),
   (lit "MapTerrain", MapTerrain.annotations.map (·.1)),
   (lit "MapLand", MapLand.annotations.map (·.1)),
   (lit "MapElevation", MapElevation.annotations.map (·.1)),
   (lit "MapInfo", MapInfo.annotations.map (·.1)),
   (lit "RandomMaps", RandomMaps.annotations.map (·.1)),
   (lit "ResearchResourceCost", ResearchResourceCost.annotations.map (·.1)),
   (lit "ResearchLocation", ResearchLocation.annotations.map (·.1)),
   (lit "Tech", Tech.annotations.map (·.1)),
   (lit "Common", Common.annotations.map (·.1)),
   (lit "TechTreeAge", TechTreeAge.annotations.map (·.1)),
   (lit "BuildingConnection", BuildingConnection.annotations.map (·.1)),
   (lit "UnitConnection", UnitConnection.annotations.map (·.1)),
   (lit "ResearchConnection", ResearchConnection.annotations.map (·.1)),
   (lit "TechTree", TechTree.annotations.map (·.1)),
   (lit "Task", Task.annotations.map (·.1)),
   (lit "ResourceStorage", ResourceStorage.annotations.map (·.1)),
   (lit "DamageGraphic", DamageGraphic.annotations.map (·.1)),
   (lit "DeadFish", DeadFish.annotations.map (·.1)),
   (lit "Bird", Bird.annotations.map (·.1)),
   (lit "AttackOrArmor", AttackOrArmor.annotations.map (·.1)),
   (lit "Type50", Type50.annotations.map (·.1)),
   (lit "Projectile", Projectile.annotations.map (·.1)),
   (lit "ResourceCost", ResourceCost.annotations.map (·.1)),
   (lit "TrainLocation", TrainLocation.annotations.map (·.1)),
   (lit "Creatable", (Creatable.annotations false).map (·.1)),
   (lit "BuildingAnnex", BuildingAnnex.annotations.map (·.1)),
   (lit "Building", Building.annotations.map (·.1)),
   (lit "Unit", Unit.annotations.map (·.1)),
   (lit "UnitHeaders", UnitHeaders.annotations.map (·.1)),
   (lit "Civ", Civ.annotations.map (·.1)),
   (lit "DatFile", DatFile.annotations.map (·.1))]

/-- The names of the fields of a class. -/
def fieldNames (cls : PyStr) : Option (List PyStr) := (classFields.find? fun p => decide (p.1 = cls)).map (·.2)

/-- `x == y` of floats (Python: IEEE 754). -/
def floatEq (x y : PyFloat) : Bool :=
  !F.isNaN x && !F.isNaN y && (decide (x = y) || (decide (x.bits.toNat % 2 ^ 63 = 0) && decide (y.bits.toNat % 2 ^ 63 = 0)))

/-- `i == x` of an `int` and a float (Python: exact comparison). -/
def intFloatEq (i : Int) (x : PyFloat) : Bool :=
  F.exp64 x.bits.toNat != 2047 && decide (F.scaledValue x.bits.toNat = i * 2 ^ 1075)

/-- Comparison of values that are not both references.  `same`: the two floats are the same object, and they are compared where that counts. -/
def eqScalar (same : Bool) : HVal → HVal → Bool
  | .none, .none => true
  | .int i, .int j => decide (i = j)
  | .int i, .float x => intFloatEq i x
  | .float x, .int i => intFloatEq i x
  | .float x, .float y => floatEq x y || (same && decide (x = y))
  | .str s, .str t => decide (s = t)
  | _, _ => false

/-- Elements from the index `i` on, up to the first difference. -/
def eqItems (rec : Nat → HVal → HVal → Py Bool) : Nat → List HVal → List HVal → Py Bool
  | _, [], [] => .ok true
  | i, v :: vs, w :: ws =>
    match rec i v w with
    | .ok true => eqItems rec (i + 1) vs ws
    | r => r
  | _, _, _ => .ok false

/-- The fields, up to the first difference. -/
def eqFields (rec : PyStr → HVal → HVal → Py Bool) (as bs : List (PyStr × HVal)) : List PyStr → Py Bool
  | [] => .ok true
  | n :: ns =>
    match HReader.lookup n as, HReader.lookup n bs with
    | some v, some w =>
      match rec n v w with
      | .ok true => eqFields rec as bs ns
      | r => r
    | _, _ => .error .attributeError

/-- `a == b` (Python), with room for `depth` nested comparisons.  `same p`: the floats at the place `p` of both are the same object and are
compared where identity counts (lists and tuples; before Python 3.13, also fields).  Floats have no identity in this model, so this is a
parameter; it matters for NaN only.  Simplification: two references to the same object always count as equal.  Python does this for elements
of lists and tuples and, before 3.13, for fields (the generated `__eq__` compared tuples of the fields); elsewhere, comparing an object with
itself has another result only if the object contains a NaN (which the hypotheses of the theorems exclude). -/
def eq (H : Heap) : Nat → (ObjPath → Bool) → HVal → HVal → Py Bool
  | 0, _, _, _ => .error .recursionError
  | depth + 1, same, .ref a, .ref b =>
    if a = b then .ok true
    else
      match H[a]?, H[b]? with
      | some (.list vs), some (.list ws) =>
        if vs.length = ws.length then eqItems (fun i => eq H depth fun p => same (.item i :: p)) 0 vs ws else .ok false
      | some (.tuple vs), some (.tuple ws) => eqItems (fun i => eq H depth fun p => same (.item i :: p)) 0 vs ws
      | some (.record c as), some (.record d bs) =>
        if c = d then
          match fieldNames c with
          | some ns => eqFields (fun n => eq H depth fun p => same (.attr n :: p)) as bs ns
          | none => .error .typeError
        else .ok false
      | _, _ => .ok false
  | _ + 1, same, a, b => .ok (eqScalar (same []) a b)

end W
end Genie
