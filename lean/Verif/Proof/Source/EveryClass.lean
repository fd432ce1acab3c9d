import Verif.Props.C61_SourceWriters
import Verif.Spec.RecordObjects
import Verif.Proof.Heap.Saved
/-! # Every record class: executing its reader makes an object with the value that is read -/

set_option linter.unusedVariables false

namespace Genie.Src

/-- `Class.from_bytes(content)` of the class — for `TerrainRestriction n`: `TerrainRestriction.from_bytes_with_count(content, n)` —, executed from its source. -/
def readCall (room : Nat) : RecordClass → M PVal
  | .EffectCommand => fromBytes room n!"EffectCommand"
  | .Effect => fromBytes room n!"Effect"
  | .SoundItem => fromBytes room n!"SoundItem"
  | .Sound => fromBytes room n!"Sound"
  | .PlayerColour => fromBytes room n!"PlayerColour"
  | .GraphicDelta => fromBytes room n!"GraphicDelta"
  | .GraphicAngleSound => fromBytes room n!"GraphicAngleSound"
  | .Graphic => fromBytes room n!"Graphic"
  | .TerrainPassGraphic => fromBytes room n!"TerrainPassGraphic"
  | .TerrainRestriction k => callN room (.cls n!"TerrainRestriction") n!"TerrainRestriction" n!"from_bytes_with_count" ⟨[.handler, .h (.int k)], []⟩
  | .FrameData => fromBytes room n!"FrameData"
  | .Terrain => fromBytes room n!"Terrain"
  | .TileSize => fromBytes room n!"TileSize"
  | .TerrainBlock => fromBytes room n!"TerrainBlock"
  | .MapUnit => fromBytes room n!"MapUnit"
  | .MapTerrain => fromBytes room n!"MapTerrain"
  | .MapLand => fromBytes room n!"MapLand"
  | .MapElevation => fromBytes room n!"MapElevation"
  | .MapInfo => fromBytes room n!"MapInfo"
  | .RandomMaps => fromBytes room n!"RandomMaps"
  | .ResearchResourceCost => fromBytes room n!"ResearchResourceCost"
  | .ResearchLocation => fromBytes room n!"ResearchLocation"
  | .Tech => fromBytes room n!"Tech"
  | .Common => fromBytes room n!"Common"
  | .TechTreeAge => fromBytes room n!"TechTreeAge"
  | .BuildingConnection => fromBytes room n!"BuildingConnection"
  | .UnitConnection => fromBytes room n!"UnitConnection"
  | .ResearchConnection => fromBytes room n!"ResearchConnection"
  | .TechTree => fromBytes room n!"TechTree"
  | .Task => fromBytes room n!"Task"
  | .ResourceStorage => fromBytes room n!"ResourceStorage"
  | .DamageGraphic => fromBytes room n!"DamageGraphic"
  | .DeadFish => fromBytes room n!"DeadFish"
  | .Bird => fromBytes room n!"Bird"
  | .AttackOrArmor => fromBytes room n!"AttackOrArmor"
  | .Type50 => fromBytes room n!"Type50"
  | .Projectile => fromBytes room n!"Projectile"
  | .ResourceCost => fromBytes room n!"ResourceCost"
  | .TrainLocation => fromBytes room n!"TrainLocation"
  | .Creatable => fromBytes room n!"Creatable"
  | .BuildingAnnex => fromBytes room n!"BuildingAnnex"
  | .Building => fromBytes room n!"Building"
  | .Unit => fromBytes room n!"Unit"
  | .UnitHeaders => fromBytes room n!"UnitHeaders"
  | .Civ => fromBytes room n!"Civ"

/-- The value of the object of the class `c` that is made by reading `x` at the version `v`: before 8.4 `invulnerability_level` is an `int`
(`/repo/src/genieutils/unit.py:509-514,551`). -/
def objectAt (v : Version) : (c : RecordClass) → c.Obj → ObjTree
  | .EffectCommand, x => Genie.EffectCommand.object x
  | .Effect, x => Genie.Effect.object x
  | .SoundItem, x => Genie.SoundItem.object x
  | .Sound, x => Genie.Sound.object x
  | .PlayerColour, x => Genie.PlayerColour.object x
  | .GraphicDelta, x => Genie.GraphicDelta.object x
  | .GraphicAngleSound, x => Genie.GraphicAngleSound.object x
  | .Graphic, x => Genie.Graphic.object x
  | .TerrainPassGraphic, x => Genie.TerrainPassGraphic.object x
  | .TerrainRestriction _, x => Genie.TerrainRestriction.object x
  | .FrameData, x => Genie.FrameData.object x
  | .Terrain, x => Genie.Terrain.object x
  | .TileSize, x => Genie.TileSize.object x
  | .TerrainBlock, x => Genie.TerrainBlock.object x
  | .MapUnit, x => Genie.MapUnit.object x
  | .MapTerrain, x => Genie.MapTerrain.object x
  | .MapLand, x => Genie.MapLand.object x
  | .MapElevation, x => Genie.MapElevation.object x
  | .MapInfo, x => Genie.MapInfo.object x
  | .RandomMaps, x => Genie.RandomMaps.object x
  | .ResearchResourceCost, x => Genie.ResearchResourceCost.object x
  | .ResearchLocation, x => Genie.ResearchLocation.object x
  | .Tech, x => Genie.Tech.object x
  | .Common, x => Genie.Common.object x
  | .TechTreeAge, x => Genie.TechTreeAge.object x
  | .BuildingConnection, x => Genie.BuildingConnection.object x
  | .UnitConnection, x => Genie.UnitConnection.object x
  | .ResearchConnection, x => Genie.ResearchConnection.object x
  | .TechTree, x => Genie.TechTree.object x
  | .Task, x => Genie.Task.object x
  | .ResourceStorage, x => Genie.ResourceStorage.object x
  | .DamageGraphic, x => Genie.DamageGraphic.object x
  | .DeadFish, x => Genie.DeadFish.object x
  | .Bird, x => Genie.Bird.object x
  | .AttackOrArmor, x => Genie.AttackOrArmor.object x
  | .Type50, x => Genie.Type50.object x
  | .Projectile, x => Genie.Projectile.object x
  | .ResourceCost, x => Genie.ResourceCost.object x
  | .TrainLocation, x => Genie.TrainLocation.object x
  | .Creatable, x => Genie.Creatable.object (!v.ge .VER_84) x
  | .BuildingAnnex, x => Genie.BuildingAnnex.object x
  | .Building, x => Genie.Building.object x
  | .Unit, x => Genie.Unit.object (!v.ge .VER_84) x
  | .UnitHeaders, x => Genie.UnitHeaders.object x
  | .Civ, x => Genie.Civ.object (!v.ge .VER_84) x

theorem objectAt_carries (v : Version) (c : RecordClass) (x : c.Obj) : Carries (objectAt v c x) (c.object x) := by
  cases c
  case Creatable => exact (Creatable.converts _ x).carries
  case Unit => exact (Unit.converts _ x).carries
  case Civ => exact (Civ.converts _ x).carries
  all_goals exact Carries.refl _

/-- Executing `call` raises what `r` raises; or it returns a new object with the value that `r` returns, made of new objects each of which is in one place only,
and moves the handler as `r` does. -/
def ReadsValue (call : M PVal) (r : Reader α) (tree : Version → α → ObjTree) (H : Heap) (s : ByteHandler) : Prop :=
  match r s with
  | .error e => call H s = .error e
  | .ok (x, s') => ∃ o N t fp, call H s = .ok (.h o, H ++ N, t) ∧ t.content = s'.content ∧ t.offset = s'.offset ∧ t.version = s.version ∧
      Rep (H ++ N) o (tree s.version x) fp ∧ fp.Nodup ∧ ∀ a ∈ fp, H.length ≤ a

theorem ReadsValue.of {call : M PVal} {build : HReader HVal} {r : Reader α} {tree : Version → α → ObjTree} (hs : Same PVal.h call build)
    (hb : Builds build r tree) (H : Heap) (s : ByteHandler) : ReadsValue call r tree H s := by
  have h1 := hs H s s (Like.refl s)
  have h2 := hb H s.version [] s rfl ⟨fun _ h => (nomatch h), List.nodup_nil, fun _ h => (nomatch h)⟩
  rw [List.append_nil] at h2
  unfold ReadsValue
  cases hr : r s with
  | error e =>
    rw [hr] at h2
    cases hbs : build H s with
    | error e' => rw [hbs] at h2 h1; cases h2; exact h1
    | ok p => rw [hbs] at h2; exact h2.elim
  | ok p =>
    obtain ⟨x, s'⟩ := p
    rw [hr] at h2
    cases hbs : build H s with
    | error e' => rw [hbs] at h2; exact h2.elim
    | ok p =>
      obtain ⟨o, H', s1⟩ := p
      rw [hbs] at h2 h1
      obtain ⟨rfl, hv, N, fp, rfl, rp, nd, fr⟩ := h2
      obtain ⟨t, hl, e⟩ := h1
      exact ⟨o, N, t, fp, e, hl.content, hl.offset, hl.version.trans hv, rp, nd, fr⟩

-- keeps the elaborator from evaluating them
attribute [local irreducible] Genie.TerrainBlock.build Genie.TerrainBlock.fromBytes

theorem reads_EffectCommand (room : Nat) (hr : 13 ≤ room) (H : Heap) (s : ByteHandler) :
    ReadsValue (fromBytes room n!"EffectCommand") EffectCommand.fromBytes (fun v => EffectCommand.object) H s := by
  have h1 := EffectCommand_from_bytes room (by omega)
  have h2 := @EffectCommand.builds
  exact ReadsValue.of h1 h2 H s

theorem reads_Effect (room : Nat) (hr : 13 ≤ room) (H : Heap) (s : ByteHandler) :
    ReadsValue (fromBytes room n!"Effect") Effect.fromBytes (fun v => Effect.object) H s := by
  have h1 := Effect_from_bytes room (by omega)
  have h2 := @Effect.builds
  exact ReadsValue.of h1 h2 H s

theorem reads_SoundItem (room : Nat) (hr : 13 ≤ room) (H : Heap) (s : ByteHandler) :
    ReadsValue (fromBytes room n!"SoundItem") SoundItem.fromBytes (fun v => SoundItem.object) H s := by
  have h1 := SoundItem_from_bytes room (by omega)
  have h2 := @SoundItem.builds
  exact ReadsValue.of h1 h2 H s

theorem reads_Sound (room : Nat) (hr : 13 ≤ room) (H : Heap) (s : ByteHandler) :
    ReadsValue (fromBytes room n!"Sound") Sound.fromBytes (fun v => Sound.object) H s := by
  have h1 := Sound_from_bytes room (by omega)
  have h2 := @Sound.builds
  exact ReadsValue.of h1 h2 H s

theorem reads_PlayerColour (room : Nat) (hr : 13 ≤ room) (H : Heap) (s : ByteHandler) :
    ReadsValue (fromBytes room n!"PlayerColour") PlayerColour.fromBytes (fun v => PlayerColour.object) H s := by
  have h1 := PlayerColour_from_bytes room (by omega)
  have h2 := @PlayerColour.builds
  exact ReadsValue.of h1 h2 H s

theorem reads_GraphicDelta (room : Nat) (hr : 13 ≤ room) (H : Heap) (s : ByteHandler) :
    ReadsValue (fromBytes room n!"GraphicDelta") GraphicDelta.fromBytes (fun v => GraphicDelta.object) H s := by
  have h1 := GraphicDelta_from_bytes room (by omega)
  have h2 := @GraphicDelta.builds
  exact ReadsValue.of h1 h2 H s

theorem reads_GraphicAngleSound (room : Nat) (hr : 13 ≤ room) (H : Heap) (s : ByteHandler) :
    ReadsValue (fromBytes room n!"GraphicAngleSound") GraphicAngleSound.fromBytes (fun v => GraphicAngleSound.object) H s := by
  have h1 := GraphicAngleSound_from_bytes room (by omega)
  have h2 := @GraphicAngleSound.builds
  exact ReadsValue.of h1 h2 H s

theorem reads_Graphic (room : Nat) (hr : 13 ≤ room) (H : Heap) (s : ByteHandler) :
    ReadsValue (fromBytes room n!"Graphic") Graphic.fromBytes (fun v => Graphic.object) H s := by
  have h1 := Graphic_from_bytes room (by omega)
  have h2 := @Graphic.builds
  exact ReadsValue.of h1 h2 H s

theorem reads_TerrainPassGraphic (room : Nat) (hr : 13 ≤ room) (H : Heap) (s : ByteHandler) :
    ReadsValue (fromBytes room n!"TerrainPassGraphic") TerrainPassGraphic.fromBytes (fun v => TerrainPassGraphic.object) H s := by
  have h1 := TerrainPassGraphic_from_bytes room (by omega)
  have h2 := @TerrainPassGraphic.builds
  exact ReadsValue.of h1 h2 H s

theorem reads_FrameData (room : Nat) (hr : 13 ≤ room) (H : Heap) (s : ByteHandler) :
    ReadsValue (fromBytes room n!"FrameData") FrameData.fromBytes (fun v => FrameData.object) H s := by
  have h1 := FrameData_from_bytes room (by omega)
  have h2 := @FrameData.builds
  exact ReadsValue.of h1 h2 H s

theorem reads_Terrain (room : Nat) (hr : 13 ≤ room) (H : Heap) (s : ByteHandler) :
    ReadsValue (fromBytes room n!"Terrain") Terrain.fromBytes (fun v => Terrain.object) H s := by
  have h1 := Terrain_from_bytes room (by omega)
  have h2 := @Terrain.builds
  exact ReadsValue.of h1 h2 H s

theorem reads_TileSize (room : Nat) (hr : 13 ≤ room) (H : Heap) (s : ByteHandler) :
    ReadsValue (fromBytes room n!"TileSize") TileSize.fromBytes (fun v => TileSize.object) H s := by
  have h1 := TileSize_from_bytes room (by omega)
  have h2 := @TileSize.builds
  exact ReadsValue.of h1 h2 H s

theorem reads_TerrainBlock (room : Nat) (hr : 13 ≤ room) (H : Heap) (s : ByteHandler) :
    ReadsValue (fromBytes room n!"TerrainBlock") TerrainBlock.fromBytes (fun v => TerrainBlock.object) H s := by
  have h1 := TerrainBlock_from_bytes room (by omega)
  have h2 := @TerrainBlock.builds
  exact ReadsValue.of h1 h2 H s

theorem reads_MapUnit (room : Nat) (hr : 13 ≤ room) (H : Heap) (s : ByteHandler) :
    ReadsValue (fromBytes room n!"MapUnit") MapUnit.fromBytes (fun v => MapUnit.object) H s := by
  have h1 := MapUnit_from_bytes room (by omega)
  have h2 := @MapUnit.builds
  exact ReadsValue.of h1 h2 H s

theorem reads_MapTerrain (room : Nat) (hr : 13 ≤ room) (H : Heap) (s : ByteHandler) :
    ReadsValue (fromBytes room n!"MapTerrain") MapTerrain.fromBytes (fun v => MapTerrain.object) H s := by
  have h1 := MapTerrain_from_bytes room (by omega)
  have h2 := @MapTerrain.builds
  exact ReadsValue.of h1 h2 H s

theorem reads_MapLand (room : Nat) (hr : 13 ≤ room) (H : Heap) (s : ByteHandler) :
    ReadsValue (fromBytes room n!"MapLand") MapLand.fromBytes (fun v => MapLand.object) H s := by
  have h1 := MapLand_from_bytes room (by omega)
  have h2 := @MapLand.builds
  exact ReadsValue.of h1 h2 H s

theorem reads_MapElevation (room : Nat) (hr : 13 ≤ room) (H : Heap) (s : ByteHandler) :
    ReadsValue (fromBytes room n!"MapElevation") MapElevation.fromBytes (fun v => MapElevation.object) H s := by
  have h1 := MapElevation_from_bytes room (by omega)
  have h2 := @MapElevation.builds
  exact ReadsValue.of h1 h2 H s

theorem reads_MapInfo (room : Nat) (hr : 13 ≤ room) (H : Heap) (s : ByteHandler) :
    ReadsValue (fromBytes room n!"MapInfo") MapInfo.fromBytes (fun v => MapInfo.object) H s := by
  have h1 := MapInfo_from_bytes room (by omega)
  have h2 := @MapInfo.builds
  exact ReadsValue.of h1 h2 H s

theorem reads_RandomMaps (room : Nat) (hr : 13 ≤ room) (H : Heap) (s : ByteHandler) :
    ReadsValue (fromBytes room n!"RandomMaps") RandomMaps.fromBytes (fun v => RandomMaps.object) H s := by
  have h1 := RandomMaps_from_bytes room (by omega)
  have h2 := @RandomMaps.builds
  exact ReadsValue.of h1 h2 H s

theorem reads_ResearchResourceCost (room : Nat) (hr : 13 ≤ room) (H : Heap) (s : ByteHandler) :
    ReadsValue (fromBytes room n!"ResearchResourceCost") ResearchResourceCost.fromBytes (fun v => ResearchResourceCost.object) H s := by
  have h1 := ResearchResourceCost_from_bytes room (by omega)
  have h2 := @ResearchResourceCost.builds
  exact ReadsValue.of h1 h2 H s

theorem reads_ResearchLocation (room : Nat) (hr : 13 ≤ room) (H : Heap) (s : ByteHandler) :
    ReadsValue (fromBytes room n!"ResearchLocation") ResearchLocation.fromBytes (fun v => ResearchLocation.object) H s := by
  have h1 := ResearchLocation_from_bytes room (by omega)
  have h2 := @ResearchLocation.builds
  exact ReadsValue.of h1 h2 H s

theorem reads_Tech (room : Nat) (hr : 13 ≤ room) (H : Heap) (s : ByteHandler) :
    ReadsValue (fromBytes room n!"Tech") Tech.fromBytes (fun v => Tech.object) H s := by
  have h1 := Tech_from_bytes room (by omega)
  have h2 := @Tech.builds
  exact ReadsValue.of h1 h2 H s

theorem reads_Common (room : Nat) (hr : 13 ≤ room) (H : Heap) (s : ByteHandler) :
    ReadsValue (fromBytes room n!"Common") Common.fromBytes (fun v => Common.object) H s := by
  have h1 := Common_from_bytes room (by omega)
  have h2 := @Common.builds
  exact ReadsValue.of h1 h2 H s

theorem reads_TechTreeAge (room : Nat) (hr : 13 ≤ room) (H : Heap) (s : ByteHandler) :
    ReadsValue (fromBytes room n!"TechTreeAge") TechTreeAge.fromBytes (fun v => TechTreeAge.object) H s := by
  have h1 := TechTreeAge_from_bytes room (by omega)
  have h2 := @TechTreeAge.builds
  exact ReadsValue.of h1 h2 H s

theorem reads_BuildingConnection (room : Nat) (hr : 13 ≤ room) (H : Heap) (s : ByteHandler) :
    ReadsValue (fromBytes room n!"BuildingConnection") BuildingConnection.fromBytes (fun v => BuildingConnection.object) H s := by
  have h1 := BuildingConnection_from_bytes room (by omega)
  have h2 := @BuildingConnection.builds
  exact ReadsValue.of h1 h2 H s

theorem reads_UnitConnection (room : Nat) (hr : 13 ≤ room) (H : Heap) (s : ByteHandler) :
    ReadsValue (fromBytes room n!"UnitConnection") UnitConnection.fromBytes (fun v => UnitConnection.object) H s := by
  have h1 := UnitConnection_from_bytes room (by omega)
  have h2 := @UnitConnection.builds
  exact ReadsValue.of h1 h2 H s

theorem reads_ResearchConnection (room : Nat) (hr : 13 ≤ room) (H : Heap) (s : ByteHandler) :
    ReadsValue (fromBytes room n!"ResearchConnection") ResearchConnection.fromBytes (fun v => ResearchConnection.object) H s := by
  have h1 := ResearchConnection_from_bytes room (by omega)
  have h2 := @ResearchConnection.builds
  exact ReadsValue.of h1 h2 H s

theorem reads_TechTree (room : Nat) (hr : 13 ≤ room) (H : Heap) (s : ByteHandler) :
    ReadsValue (fromBytes room n!"TechTree") TechTree.fromBytes (fun v => TechTree.object) H s := by
  have h1 := TechTree_from_bytes room (by omega)
  have h2 := @TechTree.builds
  exact ReadsValue.of h1 h2 H s

theorem reads_Task (room : Nat) (hr : 13 ≤ room) (H : Heap) (s : ByteHandler) :
    ReadsValue (fromBytes room n!"Task") Task.fromBytes (fun v => Task.object) H s := by
  have h1 := Task_from_bytes room (by omega)
  have h2 := @Task.builds
  exact ReadsValue.of h1 h2 H s

theorem reads_ResourceStorage (room : Nat) (hr : 13 ≤ room) (H : Heap) (s : ByteHandler) :
    ReadsValue (fromBytes room n!"ResourceStorage") ResourceStorage.fromBytes (fun v => ResourceStorage.object) H s := by
  have h1 := ResourceStorage_from_bytes room (by omega)
  have h2 := @ResourceStorage.builds
  exact ReadsValue.of h1 h2 H s

theorem reads_DamageGraphic (room : Nat) (hr : 13 ≤ room) (H : Heap) (s : ByteHandler) :
    ReadsValue (fromBytes room n!"DamageGraphic") DamageGraphic.fromBytes (fun v => DamageGraphic.object) H s := by
  have h1 := DamageGraphic_from_bytes room (by omega)
  have h2 := @DamageGraphic.builds
  exact ReadsValue.of h1 h2 H s

theorem reads_DeadFish (room : Nat) (hr : 13 ≤ room) (H : Heap) (s : ByteHandler) :
    ReadsValue (fromBytes room n!"DeadFish") DeadFish.fromBytes (fun v => DeadFish.object) H s := by
  have h1 := DeadFish_from_bytes room (by omega)
  have h2 := @DeadFish.builds
  exact ReadsValue.of h1 h2 H s

theorem reads_Bird (room : Nat) (hr : 13 ≤ room) (H : Heap) (s : ByteHandler) :
    ReadsValue (fromBytes room n!"Bird") Bird.fromBytes (fun v => Bird.object) H s := by
  have h1 := Bird_from_bytes room (by omega)
  have h2 := @Bird.builds
  exact ReadsValue.of h1 h2 H s

theorem reads_AttackOrArmor (room : Nat) (hr : 13 ≤ room) (H : Heap) (s : ByteHandler) :
    ReadsValue (fromBytes room n!"AttackOrArmor") AttackOrArmor.fromBytes (fun v => AttackOrArmor.object) H s := by
  have h1 := AttackOrArmor_from_bytes room (by omega)
  have h2 := @AttackOrArmor.builds
  exact ReadsValue.of h1 h2 H s

theorem reads_Type50 (room : Nat) (hr : 13 ≤ room) (H : Heap) (s : ByteHandler) :
    ReadsValue (fromBytes room n!"Type50") Type50.fromBytes (fun v => Type50.object) H s := by
  have h1 := Type50_from_bytes room (by omega)
  have h2 := @Type50.builds
  exact ReadsValue.of h1 h2 H s

theorem reads_Projectile (room : Nat) (hr : 13 ≤ room) (H : Heap) (s : ByteHandler) :
    ReadsValue (fromBytes room n!"Projectile") Projectile.fromBytes (fun v => Projectile.object) H s := by
  have h1 := Projectile_from_bytes room (by omega)
  have h2 := @Projectile.builds
  exact ReadsValue.of h1 h2 H s

theorem reads_ResourceCost (room : Nat) (hr : 13 ≤ room) (H : Heap) (s : ByteHandler) :
    ReadsValue (fromBytes room n!"ResourceCost") ResourceCost.fromBytes (fun v => ResourceCost.object) H s := by
  have h1 := ResourceCost_from_bytes room (by omega)
  have h2 := @ResourceCost.builds
  exact ReadsValue.of h1 h2 H s

theorem reads_TrainLocation (room : Nat) (hr : 13 ≤ room) (H : Heap) (s : ByteHandler) :
    ReadsValue (fromBytes room n!"TrainLocation") TrainLocation.fromBytes (fun v => TrainLocation.object) H s := by
  have h1 := TrainLocation_from_bytes room (by omega)
  have h2 := @TrainLocation.builds
  exact ReadsValue.of h1 h2 H s

theorem reads_Creatable (room : Nat) (hr : 13 ≤ room) (H : Heap) (s : ByteHandler) :
    ReadsValue (fromBytes room n!"Creatable") Creatable.fromBytes (fun v => Creatable.object (!v.ge .VER_84)) H s := by
  have h1 := Creatable_from_bytes room (by omega)
  have h2 := @Creatable.builds
  exact ReadsValue.of h1 h2 H s

theorem reads_BuildingAnnex (room : Nat) (hr : 13 ≤ room) (H : Heap) (s : ByteHandler) :
    ReadsValue (fromBytes room n!"BuildingAnnex") BuildingAnnex.fromBytes (fun v => BuildingAnnex.object) H s := by
  have h1 := BuildingAnnex_from_bytes room (by omega)
  have h2 := @BuildingAnnex.builds
  exact ReadsValue.of h1 h2 H s

theorem reads_Building (room : Nat) (hr : 13 ≤ room) (H : Heap) (s : ByteHandler) :
    ReadsValue (fromBytes room n!"Building") Building.fromBytes (fun v => Building.object) H s := by
  have h1 := Building_from_bytes room (by omega)
  have h2 := @Building.builds
  exact ReadsValue.of h1 h2 H s

theorem reads_Unit (room : Nat) (hr : 13 ≤ room) (H : Heap) (s : ByteHandler) :
    ReadsValue (fromBytes room n!"Unit") Unit.fromBytes (fun v => Unit.object (!v.ge .VER_84)) H s := by
  have h1 := Unit_from_bytes room (by omega)
  have h2 := @Unit.builds
  exact ReadsValue.of h1 h2 H s

theorem reads_UnitHeaders (room : Nat) (hr : 13 ≤ room) (H : Heap) (s : ByteHandler) :
    ReadsValue (fromBytes room n!"UnitHeaders") UnitHeaders.fromBytes (fun v => UnitHeaders.object) H s := by
  have h1 := UnitHeaders_from_bytes room (by omega)
  have h2 := @UnitHeaders.builds
  exact ReadsValue.of h1 h2 H s

theorem reads_Civ (room : Nat) (hr : 13 ≤ room) (H : Heap) (s : ByteHandler) :
    ReadsValue (fromBytes room n!"Civ") Civ.fromBytes (fun v => Civ.object (!v.ge .VER_84)) H s := by
  have h1 := Civ_from_bytes room (by omega)
  have h2 := @Civ.builds
  exact ReadsValue.of h1 h2 H s

theorem readCall_reads (room : Nat) (hr : 13 ≤ room) (c : RecordClass) (H : Heap) (s : ByteHandler) :
    ReadsValue (readCall room c) c.fromBytes (fun v => objectAt v c) H s := by
  cases c with
  | EffectCommand => exact reads_EffectCommand room hr H s
  | Effect => exact reads_Effect room hr H s
  | SoundItem => exact reads_SoundItem room hr H s
  | Sound => exact reads_Sound room hr H s
  | PlayerColour => exact reads_PlayerColour room hr H s
  | GraphicDelta => exact reads_GraphicDelta room hr H s
  | GraphicAngleSound => exact reads_GraphicAngleSound room hr H s
  | Graphic => exact reads_Graphic room hr H s
  | TerrainPassGraphic => exact reads_TerrainPassGraphic room hr H s
  | FrameData => exact reads_FrameData room hr H s
  | Terrain => exact reads_Terrain room hr H s
  | TileSize => exact reads_TileSize room hr H s
  | TerrainBlock => exact reads_TerrainBlock room hr H s
  | MapUnit => exact reads_MapUnit room hr H s
  | MapTerrain => exact reads_MapTerrain room hr H s
  | MapLand => exact reads_MapLand room hr H s
  | MapElevation => exact reads_MapElevation room hr H s
  | MapInfo => exact reads_MapInfo room hr H s
  | RandomMaps => exact reads_RandomMaps room hr H s
  | ResearchResourceCost => exact reads_ResearchResourceCost room hr H s
  | ResearchLocation => exact reads_ResearchLocation room hr H s
  | Tech => exact reads_Tech room hr H s
  | Common => exact reads_Common room hr H s
  | TechTreeAge => exact reads_TechTreeAge room hr H s
  | BuildingConnection => exact reads_BuildingConnection room hr H s
  | UnitConnection => exact reads_UnitConnection room hr H s
  | ResearchConnection => exact reads_ResearchConnection room hr H s
  | TechTree => exact reads_TechTree room hr H s
  | Task => exact reads_Task room hr H s
  | ResourceStorage => exact reads_ResourceStorage room hr H s
  | DamageGraphic => exact reads_DamageGraphic room hr H s
  | DeadFish => exact reads_DeadFish room hr H s
  | Bird => exact reads_Bird room hr H s
  | AttackOrArmor => exact reads_AttackOrArmor room hr H s
  | Type50 => exact reads_Type50 room hr H s
  | Projectile => exact reads_Projectile room hr H s
  | ResourceCost => exact reads_ResourceCost room hr H s
  | TrainLocation => exact reads_TrainLocation room hr H s
  | Creatable => exact reads_Creatable room hr H s
  | BuildingAnnex => exact reads_BuildingAnnex room hr H s
  | Building => exact reads_Building room hr H s
  | Unit => exact reads_Unit room hr H s
  | UnitHeaders => exact reads_UnitHeaders room hr H s
  | Civ => exact reads_Civ room hr H s
  | TerrainRestriction k => exact .of (TerrainRestriction_from_bytes_with_count room (by omega) k) (TerrainRestriction.buildsWithCount k) H s

theorem unit_sized {v : Version} {u : Unit} (hw : Unit.WF v u) : u.Sized := by
  refine ⟨hw.standing_graphic.1, hw.placement_side_terrain.1, hw.placement_terrain.1, hw.clearance_size.1, fun x hx => ?_, fun x hx => ?_⟩
  · have := hw.creatable
    rw [hx] at this
    exact (this.2 _ rfl).projectile_spawning_area.1
  · have := hw.building
    rw [hx] at this
    exact (this.2 _ rfl).looting_table.1

theorem record_sized {v : Version} (c : RecordClass) {x : c.Obj} (h : c.WF v x) : c.Sized x := by
  cases c
  case Creatable => exact h.projectile_spawning_area.1
  case Building => exact h.looting_table.1
  case Unit => exact unit_sized h
  case Civ => exact fun u hu => unit_sized (h.units.2 _ hu _ rfl)
  all_goals trivial

end Genie.Src
