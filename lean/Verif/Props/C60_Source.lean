import Verif.Proof.Source.Units
import Verif.Props.C45_Objects
/-!
# C60: the source code itself

`Verif/Model/Source*.lean` is the syntax tree of the package as Python's parser gives it, `Verif/Py/Interp.lean` an interpreter for it.  The
theorems below say that executing the source is the same as the model that all other theorems are about.
-/

namespace Genie.Src

/-- Execute `C.from_bytes(content)`, for the class named `c`, with at most `room` calls inside each other. -/
def fromBytes (room : Nat) (c : Name) : M PVal := callN room (.cls c) c n!"from_bytes" ⟨[.handler], []⟩

/-- The classes with their readers in the model. -/
def readers : List (Name × HReader HVal) :=
  [(n!"EffectCommand", EffectCommand.build),
   (n!"Effect", Effect.build),
   (n!"SoundItem", SoundItem.build),
   (n!"Sound", Sound.build),
   (n!"PlayerColour", PlayerColour.build),
   (n!"GraphicDelta", GraphicDelta.build),
   (n!"GraphicAngleSound", GraphicAngleSound.build),
   (n!"Graphic", Graphic.build),
   (n!"TerrainPassGraphic", TerrainPassGraphic.build),
   (n!"FrameData", FrameData.build),
   (n!"Terrain", Terrain.build),
   (n!"TileSize", TileSize.build),
   (n!"TerrainBlock", TerrainBlock.build),
   (n!"MapUnit", MapUnit.build),
   (n!"MapTerrain", MapTerrain.build),
   (n!"MapLand", MapLand.build),
   (n!"MapElevation", MapElevation.build),
   (n!"MapInfo", MapInfo.build),
   (n!"RandomMaps", RandomMaps.build),
   (n!"ResearchResourceCost", ResearchResourceCost.build),
   (n!"ResearchLocation", ResearchLocation.build),
   (n!"Tech", Tech.build),
   (n!"Common", Common.build),
   (n!"TechTreeAge", TechTreeAge.build),
   (n!"BuildingConnection", BuildingConnection.build),
   (n!"UnitConnection", UnitConnection.build),
   (n!"ResearchConnection", ResearchConnection.build),
   (n!"TechTree", TechTree.build),
   (n!"Task", Task.build),
   (n!"ResourceStorage", ResourceStorage.build),
   (n!"DamageGraphic", DamageGraphic.build),
   (n!"DeadFish", DeadFish.build),
   (n!"Bird", Bird.build),
   (n!"AttackOrArmor", AttackOrArmor.build),
   (n!"Type50", Type50.build),
   (n!"Projectile", Projectile.build),
   (n!"ResourceCost", ResourceCost.build),
   (n!"TrainLocation", TrainLocation.build),
   (n!"Creatable", Creatable.build),
   (n!"BuildingAnnex", BuildingAnnex.build),
   (n!"Building", Building.build),
   (n!"Unit", Unit.build),
   (n!"UnitHeaders", UnitHeaders.build),
   (n!"Civ", Civ.build),
   (n!"DatFile", DatFile.build)]

/-- The outcome of the interpreter is the outcome of the model: the same exception; or the same object, the same objects in the heap, and the
same content, position and version of the handler. -/
def Agrees (p : Py (PVal × Heap × ByteHandler)) (q : Py (HVal × Heap × ByteHandler)) : Prop :=
  match q with
  | .error e => p = .error e
  | .ok (v, H, t) => ∃ s : ByteHandler, p = .ok (.h v, H, s) ∧ s.content = t.content ∧ s.offset = t.offset ∧ s.version = t.version

theorem ReadsAs.mono {d e : Nat} {c : Name} {build : HReader HVal} (h : ReadsAs d c build) (hd : d ≤ e) :
    ∀ room, e ≤ room → ∀ H s, Agrees (fromBytes room c H s) (build H s) := by
  intro room hr H s
  have h0 := h room (by omega) H s s (Like.refl s)
  unfold Agrees fromBytes
  cases hb : build H s with
  | error e => rw [hb] at h0; exact h0
  | ok r =>
    obtain ⟨v, H', t⟩ := r
    rw [hb] at h0
    obtain ⟨s', hl, hf⟩ := h0
    exact ⟨s', hf, hl.content, hl.offset, hl.version⟩

theorem cons_reader {room : Nat} {H : Heap} {s : ByteHandler} {c : Name} {b : HReader HVal} {l : List (Name × HReader HVal)}
    (h : Agrees (fromBytes room c H s) (b H s)) (t : ∀ r ∈ l, Agrees (fromBytes room r.1 H s) (r.2 H s)) :
    ∀ r ∈ (c, b) :: l, Agrees (fromBytes room r.1 H s) (r.2 H s) := by
  intro r hr
  rcases List.mem_cons.mp hr with rfl | hr
  · exact h
  · exact t r hr

set_option maxHeartbeats 0 in
/-- Executing the source of `from_bytes` of any class does what the model does, for all objects that exist, all states of the handler, and any
room for at least 13 calls inside each other. -/
theorem C60_from_bytes_of_every_class (room : Nat) (hr : 13 ≤ room) (H : Heap) (s : ByteHandler) :
    ∀ r ∈ readers, Agrees (fromBytes room r.1 H s) (r.2 H s) := by
  unfold readers
  refine cons_reader (EffectCommand_from_bytes.mono (by omega) room hr H s) ?_
  refine cons_reader (Effect_from_bytes.mono (by omega) room hr H s) ?_
  refine cons_reader (SoundItem_from_bytes.mono (by omega) room hr H s) ?_
  refine cons_reader (Sound_from_bytes.mono (by omega) room hr H s) ?_
  refine cons_reader (PlayerColour_from_bytes.mono (by omega) room hr H s) ?_
  refine cons_reader (GraphicDelta_from_bytes.mono (by omega) room hr H s) ?_
  refine cons_reader (GraphicAngleSound_from_bytes.mono (by omega) room hr H s) ?_
  refine cons_reader (Graphic_from_bytes.mono (by omega) room hr H s) ?_
  refine cons_reader (TerrainPassGraphic_from_bytes.mono (by omega) room hr H s) ?_
  refine cons_reader (FrameData_from_bytes.mono (by omega) room hr H s) ?_
  refine cons_reader (Terrain_from_bytes.mono (by omega) room hr H s) ?_
  refine cons_reader (TileSize_from_bytes.mono (by omega) room hr H s) ?_
  refine cons_reader (TerrainBlock_from_bytes.mono (by omega) room hr H s) ?_
  refine cons_reader (MapUnit_from_bytes.mono (by omega) room hr H s) ?_
  refine cons_reader (MapTerrain_from_bytes.mono (by omega) room hr H s) ?_
  refine cons_reader (MapLand_from_bytes.mono (by omega) room hr H s) ?_
  refine cons_reader (MapElevation_from_bytes.mono (by omega) room hr H s) ?_
  refine cons_reader (MapInfo_from_bytes.mono (by omega) room hr H s) ?_
  refine cons_reader (RandomMaps_from_bytes.mono (by omega) room hr H s) ?_
  refine cons_reader (ResearchResourceCost_from_bytes.mono (by omega) room hr H s) ?_
  refine cons_reader (ResearchLocation_from_bytes.mono (by omega) room hr H s) ?_
  refine cons_reader (Tech_from_bytes.mono (by omega) room hr H s) ?_
  refine cons_reader (Common_from_bytes.mono (by omega) room hr H s) ?_
  refine cons_reader (TechTreeAge_from_bytes.mono (by omega) room hr H s) ?_
  refine cons_reader (BuildingConnection_from_bytes.mono (by omega) room hr H s) ?_
  refine cons_reader (UnitConnection_from_bytes.mono (by omega) room hr H s) ?_
  refine cons_reader (ResearchConnection_from_bytes.mono (by omega) room hr H s) ?_
  refine cons_reader (TechTree_from_bytes.mono (by omega) room hr H s) ?_
  refine cons_reader (Task_from_bytes.mono (by omega) room hr H s) ?_
  refine cons_reader (ResourceStorage_from_bytes.mono (by omega) room hr H s) ?_
  refine cons_reader (DamageGraphic_from_bytes.mono (by omega) room hr H s) ?_
  refine cons_reader (DeadFish_from_bytes.mono (by omega) room hr H s) ?_
  refine cons_reader (Bird_from_bytes.mono (by omega) room hr H s) ?_
  refine cons_reader (AttackOrArmor_from_bytes.mono (by omega) room hr H s) ?_
  refine cons_reader (Type50_from_bytes.mono (by omega) room hr H s) ?_
  refine cons_reader (Projectile_from_bytes.mono (by omega) room hr H s) ?_
  refine cons_reader (ResourceCost_from_bytes.mono (by omega) room hr H s) ?_
  refine cons_reader (TrainLocation_from_bytes.mono (by omega) room hr H s) ?_
  refine cons_reader (Creatable_from_bytes.mono (by omega) room hr H s) ?_
  refine cons_reader (BuildingAnnex_from_bytes.mono (by omega) room hr H s) ?_
  refine cons_reader (Building_from_bytes.mono (by omega) room hr H s) ?_
  refine cons_reader (Unit_from_bytes.mono (by omega) room hr H s) ?_
  refine cons_reader (UnitHeaders_from_bytes.mono (by omega) room hr H s) ?_
  refine cons_reader (Civ_from_bytes.mono (by omega) room hr H s) ?_
  refine cons_reader (DatFile_from_bytes.mono (by omega) room hr H s) ?_
  exact fun _ h => nomatch h

/-- Loading, executed from the source: it raises exactly the exceptions that the value model says, and otherwise returns a new object with
the value that the model says, made of new objects each of which occurs at one place only, and changes no object that existed. -/
theorem C60_load (room : Nat) (hr : 13 ≤ room) (H : Heap) (s : ByteHandler) :
    (∀ e, DatFile.fromBytes s = .error e → fromBytes room n!"DatFile" H s = .error e) ∧
    (∀ d s', DatFile.fromBytes s = .ok (d, s') →
      ∃ v N fp t, fromBytes room n!"DatFile" H s = .ok (.h v, H ++ N, t) ∧ t.offset = s'.offset ∧ t.version = s'.version ∧
        Rep (H ++ N) v (d.object (decide (s'.version.num < 84))) fp ∧ fp.Nodup ∧ ∀ a ∈ fp, H.length ≤ a) := by
  have h0 := DatFile_from_bytes.mono (Nat.le_refl _) room hr H s
  constructor
  · intro e he
    rw [(C45_load_builds H s).1 e he] at h0
    exact h0
  · intro d s' hd
    obtain ⟨v, N, fp, hb, r, nd, fr⟩ := (C45_load_builds H s).2 d s' hd
    rw [hb] at h0
    obtain ⟨t, hp, -, ho, hv⟩ := h0
    exact ⟨v, N, fp, t, hp, ho, hv, r, nd, fr⟩

/-- The members of `Version` in the source have the values of the model, in the same order (so that `Version(x)` is the same in both), and
their names mean these members. -/
theorem C60_versions :
    Version.src.vars.map (fun x => match x.2 with | .str s => lit s | _ => []) = Version.all.map Version.value ∧
    [n!"UNDEFINED", n!"VER_71", n!"VER_72", n!"VER_73", n!"VER_74", n!"VER_75", n!"VER_76", n!"VER_77", n!"VER_78", n!"VER_84",
      n!"VER_88"].map (classVar n!"Version") =
    [Version.UNDEFINED, .VER_71, .VER_72, .VER_73, .VER_74, .VER_75, .VER_76, .VER_77, .VER_78, .VER_84, .VER_88].map fun v => some (.version v) := by
  constructor
  · decide +kernel
  · rfl

/-- The members of `UnitType` in the source have the values of the model. -/
theorem C60_unit_types :
    [n!"Flag", n!"DeadFish", n!"Bird", n!"Combatant", n!"Projectile", n!"Creatable", n!"Building", n!"AoeTrees"].map (classVar n!"UnitType") =
    [UnitType.Flag, UnitType.DeadFish, UnitType.Bird, UnitType.Combatant, UnitType.Projectile, UnitType.Creatable, UnitType.Building,
      UnitType.AoeTrees].map fun i => some (.h (.int i)) := rfl

/-- Not a statement about nothing: the interpreter runs `ResearchResourceCost.from_bytes` on six bytes. -/
example : (match fromBytes 13 n!"ResearchResourceCost" [] (ByteHandler.new [1, 0, 255, 255, 1]) with
    | .ok (.h v, H, s) => some (v, H, s.offset)
    | _ => none) =
    some (.ref 0, [.record (lit "ResearchResourceCost") [(lit "type", .int 1), (lit "amount", .int (-1)), (lit "flag", .int 1)]], 5) := by
  decide +kernel

/-- Too few rooms for the calls: `RecursionError`. -/
example : (match fromBytes 2 n!"ResearchResourceCost" [] (ByteHandler.new [1, 0, 255, 255, 1]) with | .error e => some e | _ => none) =
    some .recursionError := by decide +kernel

end Genie.Src
