import Verif.Proof.Classes
import Verif.Model.Datfile
/-!
# Which exceptions a reader does not raise (generated by `tools/gen_avoids.py`)
-/

namespace Genie

/-- `r` raises none of the exceptions `S`. -/
def Avoids (S : PyErr → Prop) (r : Reader α) : Prop := ∀ h e, r h = .error e → ¬ S e

/-- No `AssertionError`, no `UnicodeDecodeError`. -/
def TextErr (e : PyErr) : Prop := e = .assertionError ∨ e = .unicodeDecodeError
/-- No `struct.error`. -/
def DataErr (e : PyErr) : Prop := e = .structError

theorem Avoids.pure {S : PyErr → Prop} (a : α) : Avoids S (pure a : Reader α) := fun _ _ h => by cases h

theorem Avoids.bind {S : PyErr → Prop} {r : Reader α} {f : α → Reader β} (h1 : Avoids S r) (h2 : ∀ a, Avoids S (f a)) :
    Avoids S (r >>= f) := by
  intro h e he
  have hb : (r >>= f) h = match r h with | .error e => .error e | .ok (a, h') => f a h' := rfl
  rw [hb] at he
  cases hr : r h with
  | error e' =>
    rw [hr] at he
    simp only [Except.error.injEq] at he
    subst he
    exact h1 h _ hr
  | ok p => rw [hr] at he; exact h2 _ _ _ he

theorem Avoids.raise {S : PyErr → Prop} {e : PyErr} (h : ¬ S e) : Avoids S (Genie.raise e : Reader α) := by
  intro hd e' he
  simp only [Genie.raise, Except.error.injEq] at he
  subst he; exact h

theorem Avoids.liftPy {S : PyErr → Prop} {x : Py α} (h : ∀ e, x = .error e → ¬ S e) : Avoids S (Genie.liftPy x) := by
  intro hd e he
  cases x with
  | error e' =>
    simp only [Genie.liftPy, Except.error.injEq] at he
    subst he; exact h _ rfl
  | ok a => cases he

theorem Avoids.noteLossy {S : PyErr → Prop} {b : Bool} : Avoids S (Genie.noteLossy b) := fun _ _ h => by cases h
theorem Avoids.getVersion {S : PyErr → Prop} : Avoids S Genie.getVersion := fun _ _ h => by cases h
theorem Avoids.range {S : PyErr → Prop} {n : Nat} : Avoids S (consumeRange n) := fun _ _ h => by cases h
theorem Avoids.int8 {S : PyErr → Prop} : Avoids S readInt8 := fun _ _ h => by cases h
theorem Avoids.int16 {S : PyErr → Prop} {s : Bool} : Avoids S (readInt16 s) := fun _ _ h => by cases h
theorem Avoids.int32 {S : PyErr → Prop} {s : Bool} : Avoids S (readInt32 s) := fun _ _ h => by cases h

theorem Avoids.float : Avoids TextErr readFloat :=
  Avoids.bind Avoids.range fun c => Avoids.bind Avoids.noteLossy fun _ => Avoids.liftPy fun e he => by
    unfold Float_from_bytes unpackNativeF at he
    split at he
    · cases he
    · cases he; simp [TextErr]

theorem Avoids.debugString : Avoids DataErr readDebugString := by
  refine Avoids.bind Avoids.int16 fun _ => ?_
  split
  · exact Avoids.raise (by simp [DataErr])
  · refine Avoids.bind Avoids.int16 fun _ => Avoids.bind Avoids.range fun c => Avoids.bind Avoids.noteLossy fun _ => Avoids.liftPy fun e he => ?_
    rw [strDecode_error he]; simp [DataErr]

theorem Avoids.unpack {fmt : String} {n : Nat} : Avoids TextErr (unpackFrom fmt n) :=
  Avoids.bind Avoids.range fun c => Avoids.bind Avoids.noteLossy fun _ => Avoids.liftPy fun e he => by
    unfold structUnpack at he
    split at he
    · cases he; simp [TextErr]
    · split at he
      · cases he
      · cases he; simp [TextErr]

theorem Avoids.repeatR {S : PyErr → Prop} {r : Reader α} (h : Avoids S r) (n : Nat) : Avoids S (Genie.repeatR r n) := by
  induction n with
  | zero => exact Avoids.pure _
  | succ n ih => exact Avoids.bind h fun _ => Avoids.bind ih fun _ => Avoids.pure _

theorem Avoids.array {S : PyErr → Prop} {r : Reader α} {n : Int} {b : Bool} (h : Avoids S r) : Avoids S (readArray r n b) :=
  Avoids.bind Avoids.noteLossy fun _ => Avoids.repeatR h _

theorem Avoids.readIf {S : PyErr → Prop} {c : Prop} [Decidable c] {r : Reader α} (h : Avoids S r) : Avoids S (Genie.readIf c r) := by
  unfold Genie.readIf
  split
  · exact Avoids.bind h fun _ => Avoids.pure _
  · exact Avoids.pure _

theorem Avoids.readOr {S : PyErr → Prop} {c : Prop} [Decidable c] {r : Reader α} {a : α} (h : Avoids S r) :
    Avoids S (Genie.readOr c r a) := by
  unfold Genie.readOr
  split
  · exact h
  · exact Avoids.pure _

theorem Avoids.popInt {vs : List Val} {k : Int → List Val → Reader β} (h : ∀ i vs, Avoids TextErr (k i vs)) :
    Avoids TextErr (Genie.popInt vs k) := by
  unfold Genie.popInt
  split
  · exact h _ _
  · exact Avoids.raise (by simp [TextErr])
  · exact Avoids.raise (by simp [TextErr])

theorem Avoids.popFloat {vs : List Val} {k : PyFloat → List Val → Reader β} (h : ∀ i vs, Avoids TextErr (k i vs)) :
    Avoids TextErr (Genie.popFloat vs k) := by
  unfold Genie.popFloat
  split
  · exact h _ _
  · exact Avoids.raise (by simp [TextErr])
  · exact Avoids.raise (by simp [TextErr])

theorem Avoids.popDone {vs : List Val} {k : Reader β} (h : Avoids TextErr k) : Avoids TextErr (Genie.popDone vs k) := by
  unfold Genie.popDone
  split
  · exact h
  · exact Avoids.raise (by simp [TextErr])

theorem Avoids.class_ {S : PyErr → Prop} {r : Reader α} (h : Avoids S r) : Avoids S (readClass r) := h
theorem Avoids.classArray {S : PyErr → Prop} {r : Reader α} {n : Int} {b : Bool} (h : Avoids S r) : Avoids S (readClassArray r n b) :=
  Avoids.array h
theorem Avoids.int8Array {S : PyErr → Prop} {n : Int} : Avoids S (readInt8Array n) := Avoids.array Avoids.int8
theorem Avoids.int16Array {S : PyErr → Prop} {n : Int} : Avoids S (readInt16Array n) := Avoids.array Avoids.int16
theorem Avoids.int32Array {S : PyErr → Prop} {n : Int} : Avoids S (readInt32Array n) := Avoids.array Avoids.int32
theorem Avoids.floatArray {n : Int} : Avoids TextErr (readFloatArray n) := Avoids.array Avoids.float

macro "avoids_fixed" : tactic => `(tactic| repeat (first
  | exact Avoids.pure _ | exact Avoids.int8 | exact Avoids.int16 | exact Avoids.int32 | exact Avoids.float | assumption
  | (refine Avoids.bind ?_ fun _ => ?_)))

theorem Avoids.int8Array2 {S : PyErr → Prop} : Avoids S readInt8Array2 := by unfold readInt8Array2; avoids_fixed
theorem Avoids.int8Array3 {S : PyErr → Prop} : Avoids S readInt8Array3 := by unfold readInt8Array3; avoids_fixed
theorem Avoids.int8Array5 {S : PyErr → Prop} : Avoids S readInt8Array5 := by unfold readInt8Array5; avoids_fixed
theorem Avoids.int8Array6 {S : PyErr → Prop} : Avoids S readInt8Array6 := by unfold readInt8Array6; avoids_fixed
theorem Avoids.int8Array10 {S : PyErr → Prop} : Avoids S readInt8Array10 := by unfold readInt8Array10; avoids_fixed
theorem Avoids.int16Array2 {S : PyErr → Prop} : Avoids S readInt16Array2 := by unfold readInt16Array2; avoids_fixed
theorem Avoids.int16Array3 {S : PyErr → Prop} : Avoids S readInt16Array3 := by unfold readInt16Array3; avoids_fixed
theorem Avoids.int16Array4 {S : PyErr → Prop} : Avoids S readInt16Array4 := by unfold readInt16Array4; avoids_fixed
theorem Avoids.int16Array6 {S : PyErr → Prop} : Avoids S readInt16Array6 := by unfold readInt16Array6; avoids_fixed
theorem Avoids.int32Array10 {S : PyErr → Prop} : Avoids S readInt32Array10 := by unfold readInt32Array10; avoids_fixed
theorem Avoids.floatArray2 : Avoids TextErr readFloatArray2 := by unfold readFloatArray2; avoids_fixed
theorem Avoids.floatArray3 : Avoids TextErr readFloatArray3 := by unfold readFloatArray3; avoids_fixed
theorem Avoids.classArray3 {S : PyErr → Prop} {r : Reader α} (h : Avoids S r) : Avoids S (readClassArray3 r) := by
  unfold readClassArray3; avoids_fixed
theorem Avoids.classArray4 {S : PyErr → Prop} {r : Reader α} (h : Avoids S r) : Avoids S (readClassArray4 r) := by
  unfold readClassArray4; avoids_fixed

/-- Prove a goal `Avoids S (do …)`. -/
macro "avoids" : tactic => `(tactic| with_reducible repeat (first
  | exact Avoids.pure _
  | refine Avoids.popInt fun _ _ => ?_ | refine Avoids.popFloat fun _ _ => ?_ | refine Avoids.popDone ?_
  | (refine Avoids.bind ?_ fun _ => ?_)
  | exact Avoids.int8 | exact Avoids.int16 | exact Avoids.int32 | exact Avoids.float
  | exact Avoids.debugString | exact Avoids.getVersion | exact Avoids.noteLossy
  | exact Avoids.int8Array | exact Avoids.int16Array | exact Avoids.int32Array | exact Avoids.floatArray
  | exact Avoids.int8Array2
  | exact Avoids.int8Array3
  | exact Avoids.int8Array5
  | exact Avoids.int8Array6
  | exact Avoids.int8Array10
  | exact Avoids.int16Array2
  | exact Avoids.int16Array3
  | exact Avoids.int16Array4
  | exact Avoids.int16Array6
  | exact Avoids.int32Array10
  | exact Avoids.floatArray2
  | exact Avoids.floatArray3
  | assumption
  | refine Avoids.class_ ?_ | refine Avoids.classArray ?_ | refine Avoids.classArray3 ?_ | refine Avoids.classArray4 ?_
  | refine Avoids.readIf ?_ | refine Avoids.readOr ?_
  | exact Avoids.unpack
  | split))

/-! ## records without texts -/

theorem EffectCommand.noText : Avoids TextErr EffectCommand.fromBytes := by
  unfold EffectCommand.fromBytes; avoids
theorem PlayerColour.noText : Avoids TextErr PlayerColour.fromBytes := by
  unfold PlayerColour.fromBytes; avoids
theorem GraphicDelta.noText : Avoids TextErr GraphicDelta.fromBytes := by
  unfold GraphicDelta.fromBytes; avoids
theorem GraphicAngleSound.noText : Avoids TextErr GraphicAngleSound.fromBytes := by
  unfold GraphicAngleSound.fromBytes; avoids
theorem TerrainPassGraphic.noText : Avoids TextErr TerrainPassGraphic.fromBytes := by
  unfold TerrainPassGraphic.fromBytes; avoids
theorem FrameData.noText : Avoids TextErr FrameData.fromBytes := by
  unfold FrameData.fromBytes; avoids
theorem TileSize.noText : Avoids TextErr TileSize.fromBytes := by
  unfold TileSize.fromBytes; avoids
theorem MapUnit.noText : Avoids TextErr MapUnit.fromBytes := by
  unfold MapUnit.fromBytes; avoids
theorem MapTerrain.noText : Avoids TextErr MapTerrain.fromBytes := by
  unfold MapTerrain.fromBytes; avoids
theorem MapLand.noText : Avoids TextErr MapLand.fromBytes := by
  unfold MapLand.fromBytes; avoids
theorem MapElevation.noText : Avoids TextErr MapElevation.fromBytes := by
  unfold MapElevation.fromBytes; avoids
theorem MapInfo.noText : Avoids TextErr MapInfo.fromBytes := by
  have := MapUnit.noText
  have := MapTerrain.noText
  have := MapLand.noText
  have := MapElevation.noText
  unfold MapInfo.fromBytes; avoids
theorem RandomMaps.noText : Avoids TextErr RandomMaps.fromBytes := by
  have := MapInfo.noText
  unfold RandomMaps.fromBytes; avoids
theorem ResearchResourceCost.noText : Avoids TextErr ResearchResourceCost.fromBytes := by
  unfold ResearchResourceCost.fromBytes; avoids
theorem ResearchLocation.noText : Avoids TextErr ResearchLocation.fromBytes := by
  unfold ResearchLocation.fromBytes; avoids
theorem Common.noText : Avoids TextErr Common.fromBytes := by
  unfold Common.fromBytes; avoids
theorem TechTreeAge.noText : Avoids TextErr TechTreeAge.fromBytes := by
  have := Common.noText
  unfold TechTreeAge.fromBytes; avoids
theorem BuildingConnection.noText : Avoids TextErr BuildingConnection.fromBytes := by
  have := Common.noText
  unfold BuildingConnection.fromBytes; avoids
theorem UnitConnection.noText : Avoids TextErr UnitConnection.fromBytes := by
  have := Common.noText
  unfold UnitConnection.fromBytes; avoids
theorem ResearchConnection.noText : Avoids TextErr ResearchConnection.fromBytes := by
  have := Common.noText
  unfold ResearchConnection.fromBytes; avoids
theorem TechTree.noText : Avoids TextErr TechTree.fromBytes := by
  have := TechTreeAge.noText
  have := BuildingConnection.noText
  have := UnitConnection.noText
  have := ResearchConnection.noText
  unfold TechTree.fromBytes; avoids
theorem ResourceStorage.noText : Avoids TextErr ResourceStorage.fromBytes := by
  unfold ResourceStorage.fromBytes; avoids
theorem DamageGraphic.noText : Avoids TextErr DamageGraphic.fromBytes := by
  unfold DamageGraphic.fromBytes; avoids
theorem DeadFish.noText : Avoids TextErr DeadFish.fromBytes := by
  unfold DeadFish.fromBytes; avoids
theorem Task.noText_fromBytes84 : Avoids TextErr Task.fromBytes84 := by
  unfold Task.fromBytes84; avoids
theorem Task.noText_fromBytes88 : Avoids TextErr Task.fromBytes88 := by
  unfold Task.fromBytes88; avoids
theorem Task.noText : Avoids TextErr Task.fromBytes := by
  have := Task.noText_fromBytes84
  have := Task.noText_fromBytes88
  unfold Task.fromBytes; avoids
theorem Bird.noText : Avoids TextErr Bird.fromBytes := by
  have := Task.noText
  unfold Bird.fromBytes; avoids
theorem AttackOrArmor.noText : Avoids TextErr AttackOrArmor.fromBytes := by
  unfold AttackOrArmor.fromBytes; avoids
theorem Type50.noText : Avoids TextErr Type50.fromBytes := by
  have := AttackOrArmor.noText
  unfold Type50.fromBytes; avoids
theorem Projectile.noText : Avoids TextErr Projectile.fromBytes := by
  unfold Projectile.fromBytes; avoids
theorem ResourceCost.noText : Avoids TextErr ResourceCost.fromBytes := by
  unfold ResourceCost.fromBytes; avoids
theorem TrainLocation.noText_fromBytes84 : Avoids TextErr TrainLocation.fromBytes84 := by
  unfold TrainLocation.fromBytes84; avoids
theorem TrainLocation.noText_fromBytes88 : Avoids TextErr TrainLocation.fromBytes88 := by
  unfold TrainLocation.fromBytes88; avoids
theorem TrainLocation.noText : Avoids TextErr TrainLocation.fromBytes := by
  have := TrainLocation.noText_fromBytes84
  have := TrainLocation.noText_fromBytes88
  unfold TrainLocation.fromBytes; avoids
theorem Creatable.noText_fromBytes78 : Avoids TextErr Creatable.fromBytes78 := by
  have := ResourceCost.noText
  have := TrainLocation.noText
  unfold Creatable.fromBytes78; avoids
theorem Creatable.noText_fromBytes84 : Avoids TextErr Creatable.fromBytes84 := by
  have := ResourceCost.noText
  have := TrainLocation.noText
  unfold Creatable.fromBytes84; avoids
theorem Creatable.noText_fromBytes88 : Avoids TextErr Creatable.fromBytes88 := by
  have := ResourceCost.noText
  have := TrainLocation.noText
  unfold Creatable.fromBytes88; avoids
theorem Creatable.noText : Avoids TextErr Creatable.fromBytes := by
  have := Creatable.noText_fromBytes78
  have := Creatable.noText_fromBytes84
  have := Creatable.noText_fromBytes88
  unfold Creatable.fromBytes; avoids
theorem BuildingAnnex.noText : Avoids TextErr BuildingAnnex.fromBytes := by
  unfold BuildingAnnex.fromBytes; avoids
theorem Building.noText : Avoids TextErr Building.fromBytes := by
  have := BuildingAnnex.noText
  unfold Building.fromBytes; avoids
theorem UnitHeaders.noText : Avoids TextErr UnitHeaders.fromBytes := by
  have := Task.noText
  unfold UnitHeaders.fromBytes; avoids
theorem TerrainRestriction.noText (n : Int) : Avoids TextErr (TerrainRestriction.fromBytesWithCount n) := by
  have := TerrainPassGraphic.noText
  unfold TerrainRestriction.fromBytesWithCount; avoids

/-! ## records without floats and packed fields -/

theorem SoundItem.noData : Avoids DataErr SoundItem.fromBytes := by
  unfold SoundItem.fromBytes; avoids
theorem Sound.noData : Avoids DataErr Sound.fromBytes := by
  have := SoundItem.noData
  unfold Sound.fromBytes; avoids
theorem PlayerColour.noData : Avoids DataErr PlayerColour.fromBytes := by
  unfold PlayerColour.fromBytes; avoids
theorem GraphicDelta.noData : Avoids DataErr GraphicDelta.fromBytes := by
  unfold GraphicDelta.fromBytes; avoids
theorem GraphicAngleSound.noData : Avoids DataErr GraphicAngleSound.fromBytes := by
  unfold GraphicAngleSound.fromBytes; avoids
theorem TerrainPassGraphic.noData : Avoids DataErr TerrainPassGraphic.fromBytes := by
  unfold TerrainPassGraphic.fromBytes; avoids
theorem FrameData.noData : Avoids DataErr FrameData.fromBytes := by
  unfold FrameData.fromBytes; avoids
theorem TileSize.noData : Avoids DataErr TileSize.fromBytes := by
  unfold TileSize.fromBytes; avoids
theorem MapUnit.noData : Avoids DataErr MapUnit.fromBytes := by
  unfold MapUnit.fromBytes; avoids
theorem MapTerrain.noData : Avoids DataErr MapTerrain.fromBytes := by
  unfold MapTerrain.fromBytes; avoids
theorem MapLand.noData : Avoids DataErr MapLand.fromBytes := by
  unfold MapLand.fromBytes; avoids
theorem MapElevation.noData : Avoids DataErr MapElevation.fromBytes := by
  unfold MapElevation.fromBytes; avoids
theorem MapInfo.noData : Avoids DataErr MapInfo.fromBytes := by
  have := MapUnit.noData
  have := MapTerrain.noData
  have := MapLand.noData
  have := MapElevation.noData
  unfold MapInfo.fromBytes; avoids
theorem RandomMaps.noData : Avoids DataErr RandomMaps.fromBytes := by
  have := MapInfo.noData
  unfold RandomMaps.fromBytes; avoids
theorem ResearchResourceCost.noData : Avoids DataErr ResearchResourceCost.fromBytes := by
  unfold ResearchResourceCost.fromBytes; avoids
theorem ResearchLocation.noData : Avoids DataErr ResearchLocation.fromBytes := by
  unfold ResearchLocation.fromBytes; avoids
theorem Tech.noData_fromBytes84 : Avoids DataErr Tech.fromBytes84 := by
  have := ResearchResourceCost.noData
  have := ResearchLocation.noData
  unfold Tech.fromBytes84; avoids
theorem Tech.noData_fromBytes88 : Avoids DataErr Tech.fromBytes88 := by
  have := ResearchResourceCost.noData
  have := ResearchLocation.noData
  unfold Tech.fromBytes88; avoids
theorem Tech.noData : Avoids DataErr Tech.fromBytes := by
  have := Tech.noData_fromBytes84
  have := Tech.noData_fromBytes88
  unfold Tech.fromBytes; avoids
theorem Common.noData : Avoids DataErr Common.fromBytes := by
  unfold Common.fromBytes; avoids
theorem TechTreeAge.noData : Avoids DataErr TechTreeAge.fromBytes := by
  have := Common.noData
  unfold TechTreeAge.fromBytes; avoids
theorem BuildingConnection.noData : Avoids DataErr BuildingConnection.fromBytes := by
  have := Common.noData
  unfold BuildingConnection.fromBytes; avoids
theorem UnitConnection.noData : Avoids DataErr UnitConnection.fromBytes := by
  have := Common.noData
  unfold UnitConnection.fromBytes; avoids
theorem ResearchConnection.noData : Avoids DataErr ResearchConnection.fromBytes := by
  have := Common.noData
  unfold ResearchConnection.fromBytes; avoids
theorem TechTree.noData : Avoids DataErr TechTree.fromBytes := by
  have := TechTreeAge.noData
  have := BuildingConnection.noData
  have := UnitConnection.noData
  have := ResearchConnection.noData
  unfold TechTree.fromBytes; avoids

end Genie
