import Verif.Spec.Annotations
import Verif.Spec.ObjectTrees
import Verif.Spec.Versioned
/-! # Well-formed values have the declared types (generated by `tools/gen_types.py`) -/

namespace Genie

theorem HasType.list_map {D} {a : Ann} {f : α → ObjTree} {l : List α} (h : ∀ x ∈ l, HasType D a (f x)) : HasType D (.list a) (.list (l.map f)) :=
  .list fun t ht => by
    obtain ⟨x, hx, rfl⟩ := List.mem_map.mp ht
    exact h x hx

theorem HasTypes.map {D} {f : α → ObjTree} : ∀ {as : List Ann} {l : List α}, l.length = as.length → (∀ a ∈ as, ∀ x ∈ l, HasType D a (f x)) →
    HasTypes D as (l.map f)
  | [], [], _, _ => .nil
  | [], _ :: _, h, _ => nomatch h
  | _ :: _, [], h, _ => nomatch h
  | a :: as, x :: l, h, k =>
    .cons (k a List.mem_cons_self x List.mem_cons_self)
      (HasTypes.map (Nat.succ.inj h) fun b hb y hy => k b (List.mem_cons_of_mem _ hb) y (List.mem_cons_of_mem _ hy))

theorem HasType.tuple_map {D} {a : Ann} {n : Nat} {as : List Ann} (has : as = List.replicate n a) {f : α → ObjTree} {l : List α} (hl : l.length = n)
    (h : ∀ x ∈ l, HasType D a (f x)) : HasType D (.tuple as) (.tuple (l.map f)) := by
  subst has
  exact .tuple (HasTypes.map (by simp [hl]) fun b hb x hx => by rw [List.eq_of_mem_replicate hb]; exact h x hx)

theorem HasType.optObj {D} {a : Ann} {f : α → ObjTree} {o : Option α} (h : ∀ x, o = Option.some x → HasType D a (f x)) : HasType D (.opt a) (Genie.optObj f o) := by
  cases o with
  | none => exact .none
  | some x => exact .some (h x rfl)

theorem EffectCommand.typed {old : Bool} (x : EffectCommand) : HasType (Declares old) (.cls (lit "EffectCommand")) (EffectCommand.object x) := by
  refine .cls .EffectCommand ?_
  refine .cons (.int _) <|
    .cons (.int _) <|
    .cons (.int _) <|
    .cons (.int _) <|
    .cons (.float _) <| .nil

theorem Effect.typed {old : Bool} (x : Effect) : HasType (Declares old) (.cls (lit "Effect")) (Effect.object x) := by
  refine .cls .Effect ?_
  refine .cons (.str _) <|
    .cons (.list_map (fun y _ => EffectCommand.typed y)) <| .nil

theorem SoundItem.typed {old : Bool} (x : SoundItem) : HasType (Declares old) (.cls (lit "SoundItem")) (SoundItem.object x) := by
  refine .cls .SoundItem ?_
  refine .cons (.str _) <|
    .cons (.int _) <|
    .cons (.int _) <|
    .cons (.int _) <|
    .cons (.int _) <| .nil

theorem Sound.typed {old : Bool} (x : Sound) : HasType (Declares old) (.cls (lit "Sound")) (Sound.object x) := by
  refine .cls .Sound ?_
  refine .cons (.int _) <|
    .cons (.int _) <|
    .cons (.int _) <|
    .cons (.int _) <|
    .cons (.list_map (fun y _ => SoundItem.typed y)) <| .nil

theorem PlayerColour.typed {old : Bool} (x : PlayerColour) : HasType (Declares old) (.cls (lit "PlayerColour")) (PlayerColour.object x) := by
  refine .cls .PlayerColour ?_
  refine .cons (.int _) <|
    .cons (.int _) <|
    .cons (.int _) <|
    .cons (.int _) <|
    .cons (.int _) <|
    .cons (.int _) <|
    .cons (.int _) <|
    .cons (.int _) <|
    .cons (.int _) <| .nil

theorem GraphicDelta.typed {old : Bool} (x : GraphicDelta) : HasType (Declares old) (.cls (lit "GraphicDelta")) (GraphicDelta.object x) := by
  refine .cls .GraphicDelta ?_
  refine .cons (.int _) <|
    .cons (.int _) <|
    .cons (.int _) <|
    .cons (.int _) <|
    .cons (.int _) <|
    .cons (.int _) <|
    .cons (.int _) <| .nil

theorem GraphicAngleSound.typed {old : Bool} (x : GraphicAngleSound) : HasType (Declares old) (.cls (lit "GraphicAngleSound")) (GraphicAngleSound.object x) := by
  refine .cls .GraphicAngleSound ?_
  refine .cons (.int _) <|
    .cons (.int _) <|
    .cons (.int _) <|
    .cons (.int _) <|
    .cons (.int _) <|
    .cons (.int _) <|
    .cons (.int _) <|
    .cons (.int _) <|
    .cons (.int _) <| .nil

theorem Graphic.typed {old : Bool} {v : Version} {x : Graphic} (h : Graphic.WF v x) : HasType (Declares old) (.cls (lit "Graphic")) (Graphic.object x) := by
  refine .cls .Graphic ?_
  refine .cons (.str _) <|
    .cons (.str _) <|
    .cons (.str _) <|
    .cons (.int _) <|
    .cons (.int _) <|
    .cons (.int _) <|
    .cons (.int _) <|
    .cons (.int _) <|
    .cons (.int _) <|
    .cons (.tuple_map (n := 4) rfl h.coordinates.1 (fun _ _ => .int _)) <|
    .cons (.int _) <|
    .cons (.int _) <|
    .cons (.int _) <|
    .cons (.int _) <|
    .cons (.int _) <|
    .cons (.float _) <|
    .cons (.float _) <|
    .cons (.float _) <|
    .cons (.int _) <|
    .cons (.int _) <|
    .cons (.int _) <|
    .cons (.int _) <|
    .cons (.list_map (fun y _ => GraphicDelta.typed y)) <|
    .cons (.list_map (fun y _ => GraphicAngleSound.typed y)) <| .nil

theorem TerrainPassGraphic.typed {old : Bool} (x : TerrainPassGraphic) : HasType (Declares old) (.cls (lit "TerrainPassGraphic")) (TerrainPassGraphic.object x) := by
  refine .cls .TerrainPassGraphic ?_
  refine .cons (.int _) <|
    .cons (.int _) <|
    .cons (.int _) <|
    .cons (.int _) <| .nil

theorem TerrainRestriction.typed {old : Bool} (x : TerrainRestriction) : HasType (Declares old) (.cls (lit "TerrainRestriction")) (TerrainRestriction.object x) := by
  refine .cls .TerrainRestriction ?_
  refine .cons (.list_map (fun _ _ => .float _)) <|
    .cons (.list_map (fun y _ => TerrainPassGraphic.typed y)) <| .nil

theorem FrameData.typed {old : Bool} (x : FrameData) : HasType (Declares old) (.cls (lit "FrameData")) (FrameData.object x) := by
  refine .cls .FrameData ?_
  refine .cons (.int _) <|
    .cons (.int _) <|
    .cons (.int _) <| .nil

theorem Terrain.typed {old : Bool} {v : Version} {x : Terrain} (h : Terrain.WF v x) : HasType (Declares old) (.cls (lit "Terrain")) (Terrain.object x) := by
  refine .cls .Terrain ?_
  refine .cons (.int _) <|
    .cons (.int _) <|
    .cons (.int _) <|
    .cons (.int _) <|
    .cons (.int _) <|
    .cons (.str _) <|
    .cons (.str _) <|
    .cons (.int _) <|
    .cons (.int _) <|
    .cons (.int _) <|
    .cons (.int _) <|
    .cons (.int _) <|
    .cons (.int _) <|
    .cons (.int _) <|
    .cons (.str _) <|
    .cons (.tuple_map (n := 3) rfl h.colors.1 (fun _ _ => .int _)) <|
    .cons (.tuple_map (n := 2) rfl h.cliff_colors.1 (fun _ _ => .int _)) <|
    .cons (.int _) <|
    .cons (.int _) <|
    .cons (.int _) <|
    .cons (.int _) <|
    .cons (.int _) <|
    .cons (.float _) <|
    .cons (.float _) <|
    .cons (.int _) <|
    .cons (.int _) <|
    .cons (.float _) <|
    .cons (.int _) <|
    .cons (.int _) <|
    .cons (.list_map (fun y _ => FrameData.typed y)) <|
    .cons (.int _) <|
    .cons (.tuple_map (n := 2) rfl h.terrain_dimensions.1 (fun _ _ => .int _)) <|
    .cons (.list_map (fun _ _ => .int _)) <|
    .cons (.list_map (fun _ _ => .int _)) <|
    .cons (.list_map (fun _ _ => .int _)) <|
    .cons (.list_map (fun _ _ => .int _)) <|
    .cons (.int _) <|
    .cons (.int _) <| .nil

theorem TileSize.typed {old : Bool} (x : TileSize) : HasType (Declares old) (.cls (lit "TileSize")) (TileSize.object x) := by
  refine .cls .TileSize ?_
  refine .cons (.int _) <|
    .cons (.int _) <|
    .cons (.int _) <| .nil

theorem TerrainBlock.typed {old : Bool} {v : Version} {x : TerrainBlock} (h : TerrainBlock.WF v x) : HasType (Declares old) (.cls (lit "TerrainBlock")) (TerrainBlock.object x) := by
  refine .cls .TerrainBlock ?_
  refine .cons (.int _) <|
    .cons (.int _) <|
    .cons (.int _) <|
    .cons (.int _) <|
    .cons (.int _) <|
    .cons (.int _) <|
    .cons (.list_map (fun y _ => TileSize.typed y)) <|
    .cons (.int _) <|
    .cons (.list_map (fun y hy => Terrain.typed (h.terrains.2 y hy))) <|
    .cons (.float _) <|
    .cons (.float _) <|
    .cons (.float _) <|
    .cons (.float _) <|
    .cons (.float _) <|
    .cons (.float _) <|
    .cons (.int _) <|
    .cons (.int _) <|
    .cons (.int _) <|
    .cons (.int _) <|
    .cons (.int _) <|
    .cons (.int _) <|
    .cons (.int _) <|
    .cons (.int _) <|
    .cons (.int _) <|
    .cons (.int _) <|
    .cons (.int _) <|
    .cons (.int _) <|
    .cons (.int _) <|
    .cons (.int _) <|
    .cons (.int _) <|
    .cons (.int _) <|
    .cons (.int _) <|
    .cons (.int _) <|
    .cons (.int _) <| .nil

theorem MapUnit.typed {old : Bool} (x : MapUnit) : HasType (Declares old) (.cls (lit "MapUnit")) (MapUnit.object x) := by
  refine .cls .MapUnit ?_
  refine .cons (.int _) <|
    .cons (.int _) <|
    .cons (.int _) <|
    .cons (.int _) <|
    .cons (.int _) <|
    .cons (.int _) <|
    .cons (.int _) <|
    .cons (.int _) <|
    .cons (.int _) <|
    .cons (.int _) <|
    .cons (.int _) <|
    .cons (.int _) <|
    .cons (.int _) <| .nil

theorem MapTerrain.typed {old : Bool} (x : MapTerrain) : HasType (Declares old) (.cls (lit "MapTerrain")) (MapTerrain.object x) := by
  refine .cls .MapTerrain ?_
  refine .cons (.int _) <|
    .cons (.int _) <|
    .cons (.int _) <|
    .cons (.int _) <|
    .cons (.int _) <|
    .cons (.int _) <| .nil

theorem MapLand.typed {old : Bool} (x : MapLand) : HasType (Declares old) (.cls (lit "MapLand")) (MapLand.object x) := by
  refine .cls .MapLand ?_
  refine .cons (.int _) <|
    .cons (.int _) <|
    .cons (.int _) <|
    .cons (.int _) <|
    .cons (.int _) <|
    .cons (.int _) <|
    .cons (.int _) <|
    .cons (.int _) <|
    .cons (.int _) <|
    .cons (.int _) <|
    .cons (.int _) <|
    .cons (.int _) <|
    .cons (.int _) <|
    .cons (.int _) <|
    .cons (.int _) <| .nil

theorem MapElevation.typed {old : Bool} (x : MapElevation) : HasType (Declares old) (.cls (lit "MapElevation")) (MapElevation.object x) := by
  refine .cls .MapElevation ?_
  refine .cons (.int _) <|
    .cons (.int _) <|
    .cons (.int _) <|
    .cons (.int _) <|
    .cons (.int _) <|
    .cons (.int _) <| .nil

theorem MapInfo.typed {old : Bool} (x : MapInfo) : HasType (Declares old) (.cls (lit "MapInfo")) (MapInfo.object x) := by
  refine .cls .MapInfo ?_
  refine .cons (.int _) <|
    .cons (.int _) <|
    .cons (.int _) <|
    .cons (.int _) <|
    .cons (.int _) <|
    .cons (.int _) <|
    .cons (.int _) <|
    .cons (.int _) <|
    .cons (.int _) <|
    .cons (.int _) <|
    .cons (.int _) <|
    .cons (.int _) <|
    .cons (.list_map (fun y _ => MapLand.typed y)) <|
    .cons (.int _) <|
    .cons (.int _) <|
    .cons (.list_map (fun y _ => MapTerrain.typed y)) <|
    .cons (.int _) <|
    .cons (.int _) <|
    .cons (.list_map (fun y _ => MapUnit.typed y)) <|
    .cons (.int _) <|
    .cons (.int _) <|
    .cons (.list_map (fun y _ => MapElevation.typed y)) <| .nil

theorem RandomMaps.typed {old : Bool} (x : RandomMaps) : HasType (Declares old) (.cls (lit "RandomMaps")) (RandomMaps.object x) := by
  refine .cls .RandomMaps ?_
  refine .cons (.int _) <|
    .cons (.list_map (fun y _ => MapInfo.typed y)) <|
    .cons (.list_map (fun y _ => MapInfo.typed y)) <| .nil

theorem ResearchResourceCost.typed {old : Bool} (x : ResearchResourceCost) : HasType (Declares old) (.cls (lit "ResearchResourceCost")) (ResearchResourceCost.object x) := by
  refine .cls .ResearchResourceCost ?_
  refine .cons (.int _) <|
    .cons (.int _) <|
    .cons (.int _) <| .nil

theorem ResearchLocation.typed {old : Bool} (x : ResearchLocation) : HasType (Declares old) (.cls (lit "ResearchLocation")) (ResearchLocation.object x) := by
  refine .cls .ResearchLocation ?_
  refine .cons (.int _) <|
    .cons (.int _) <|
    .cons (.int _) <|
    .cons (.int _) <| .nil

theorem Tech.typed {old : Bool} {v : Version} {x : Tech} (h : Tech.WF v x) : HasType (Declares old) (.cls (lit "Tech")) (Tech.object x) := by
  refine .cls .Tech ?_
  refine .cons (.tuple_map (n := 6) rfl h.required_techs.1 (fun _ _ => .int _)) <|
    .cons (.tuple_map (n := 3) rfl h.resource_costs.1 (fun y _ => ResearchResourceCost.typed y)) <|
    .cons (.int _) <|
    .cons (.int _) <|
    .cons (.int _) <|
    .cons (.int _) <|
    .cons (.int _) <|
    .cons (.int _) <|
    .cons (.int _) <|
    .cons (.int _) <|
    .cons (.int _) <|
    .cons (.int _) <|
    .cons (.str _) <|
    .cons (.int _) <|
    .cons (.list_map (fun y _ => ResearchLocation.typed y)) <| .nil

theorem Common.typed {old : Bool} {v : Version} {x : Common} (h : Common.WF v x) : HasType (Declares old) (.cls (lit "Common")) (Common.object x) := by
  refine .cls .Common ?_
  refine .cons (.int _) <|
    .cons (.tuple_map (n := 10) rfl h.unit_research.1 (fun _ _ => .int _)) <|
    .cons (.tuple_map (n := 10) rfl h.mode.1 (fun _ _ => .int _)) <| .nil

theorem TechTreeAge.typed {old : Bool} {v : Version} {x : TechTreeAge} (h : TechTreeAge.WF v x) : HasType (Declares old) (.cls (lit "TechTreeAge")) (TechTreeAge.object x) := by
  refine .cls .TechTreeAge ?_
  refine .cons (.int _) <|
    .cons (.int _) <|
    .cons (.list_map (fun _ _ => .int _)) <|
    .cons (.list_map (fun _ _ => .int _)) <|
    .cons (.list_map (fun _ _ => .int _)) <|
    .cons (Common.typed h.common) <|
    .cons (.int _) <|
    .cons (.tuple_map (n := 10) rfl h.buildings_per_zone.1 (fun _ _ => .int _)) <|
    .cons (.tuple_map (n := 10) rfl h.group_length_per_zone.1 (fun _ _ => .int _)) <|
    .cons (.int _) <|
    .cons (.int _) <| .nil

theorem BuildingConnection.typed {old : Bool} {v : Version} {x : BuildingConnection} (h : BuildingConnection.WF v x) : HasType (Declares old) (.cls (lit "BuildingConnection")) (BuildingConnection.object x) := by
  refine .cls .BuildingConnection ?_
  refine .cons (.int _) <|
    .cons (.int _) <|
    .cons (.list_map (fun _ _ => .int _)) <|
    .cons (.list_map (fun _ _ => .int _)) <|
    .cons (.list_map (fun _ _ => .int _)) <|
    .cons (Common.typed h.common) <|
    .cons (.int _) <|
    .cons (.tuple_map (n := 5) rfl h.units_techs_total.1 (fun _ _ => .int _)) <|
    .cons (.tuple_map (n := 5) rfl h.units_techs_first.1 (fun _ _ => .int _)) <|
    .cons (.int _) <|
    .cons (.int _) <| .nil

theorem UnitConnection.typed {old : Bool} {v : Version} {x : UnitConnection} (h : UnitConnection.WF v x) : HasType (Declares old) (.cls (lit "UnitConnection")) (UnitConnection.object x) := by
  refine .cls .UnitConnection ?_
  refine .cons (.int _) <|
    .cons (.int _) <|
    .cons (.int _) <|
    .cons (Common.typed h.common) <|
    .cons (.int _) <|
    .cons (.list_map (fun _ _ => .int _)) <|
    .cons (.int _) <|
    .cons (.int _) <|
    .cons (.int _) <|
    .cons (.int _) <| .nil

theorem ResearchConnection.typed {old : Bool} {v : Version} {x : ResearchConnection} (h : ResearchConnection.WF v x) : HasType (Declares old) (.cls (lit "ResearchConnection")) (ResearchConnection.object x) := by
  refine .cls .ResearchConnection ?_
  refine .cons (.int _) <|
    .cons (.int _) <|
    .cons (.int _) <|
    .cons (.list_map (fun _ _ => .int _)) <|
    .cons (.list_map (fun _ _ => .int _)) <|
    .cons (.list_map (fun _ _ => .int _)) <|
    .cons (Common.typed h.common) <|
    .cons (.int _) <|
    .cons (.int _) <|
    .cons (.int _) <| .nil

theorem TechTree.typed {old : Bool} {v : Version} {x : TechTree} (h : TechTree.WF v x) : HasType (Declares old) (.cls (lit "TechTree")) (TechTree.object x) := by
  refine .cls .TechTree ?_
  refine .cons (.int _) <|
    .cons (.list_map (fun y hy => TechTreeAge.typed (h.tech_tree_ages.2 y hy))) <|
    .cons (.list_map (fun y hy => BuildingConnection.typed (h.building_connections.2 y hy))) <|
    .cons (.list_map (fun y hy => UnitConnection.typed (h.unit_connections.2 y hy))) <|
    .cons (.list_map (fun y hy => ResearchConnection.typed (h.research_connections.2 y hy))) <| .nil

theorem Task.typed {old : Bool} (x : Task) : HasType (Declares old) (.cls (lit "Task")) (Task.object x) := by
  refine .cls .Task ?_
  refine .cons (.int _) <|
    .cons (.int _) <|
    .cons (.int _) <|
    .cons (.int _) <|
    .cons (.int _) <|
    .cons (.int _) <|
    .cons (.int _) <|
    .cons (.int _) <|
    .cons (.int _) <|
    .cons (.int _) <|
    .cons (.int _) <|
    .cons (.float _) <|
    .cons (.float _) <|
    .cons (.float _) <|
    .cons (.int _) <|
    .cons (.float _) <|
    .cons (.int _) <|
    .cons (.int _) <|
    .cons (.int _) <|
    .cons (.int _) <|
    .cons (.int _) <|
    .cons (.int _) <|
    .cons (.int _) <|
    .cons (.int _) <|
    .cons (.int _) <|
    .cons (.int _) <|
    .cons (.int _) <|
    .cons (.int _) <|
    .cons (.int _) <|
    .cons (.int _) <|
    .cons (.int _) <|
    .cons (.int _) <| .nil

theorem ResourceStorage.typed {old : Bool} (x : ResourceStorage) : HasType (Declares old) (.cls (lit "ResourceStorage")) (ResourceStorage.object x) := by
  refine .cls .ResourceStorage ?_
  refine .cons (.int _) <|
    .cons (.float _) <|
    .cons (.int _) <| .nil

theorem DamageGraphic.typed {old : Bool} (x : DamageGraphic) : HasType (Declares old) (.cls (lit "DamageGraphic")) (DamageGraphic.object x) := by
  refine .cls .DamageGraphic ?_
  refine .cons (.int _) <|
    .cons (.int _) <|
    .cons (.int _) <| .nil

theorem DeadFish.typed {old : Bool} (x : DeadFish) : HasType (Declares old) (.cls (lit "DeadFish")) (DeadFish.object x) := by
  refine .cls .DeadFish ?_
  refine .cons (.int _) <|
    .cons (.int _) <|
    .cons (.float _) <|
    .cons (.int _) <|
    .cons (.int _) <|
    .cons (.int _) <|
    .cons (.float _) <|
    .cons (.int _) <|
    .cons (.float _) <|
    .cons (.float _) <|
    .cons (.float _) <|
    .cons (.float _) <|
    .cons (.float _) <|
    .cons (.float _) <| .nil

theorem Bird.typed {old : Bool} (x : Bird) : HasType (Declares old) (.cls (lit "Bird")) (Bird.object x) := by
  refine .cls .Bird ?_
  refine .cons (.int _) <|
    .cons (.float _) <|
    .cons (.float _) <|
    .cons (.list_map (fun _ _ => .int _)) <|
    .cons (.int _) <|
    .cons (.int _) <|
    .cons (.int _) <|
    .cons (.int _) <|
    .cons (.int _) <|
    .cons (.int _) <|
    .cons (.list_map (fun y _ => Task.typed y)) <| .nil

theorem AttackOrArmor.typed {old : Bool} (x : AttackOrArmor) : HasType (Declares old) (.cls (lit "AttackOrArmor")) (AttackOrArmor.object x) := by
  refine .cls .AttackOrArmor ?_
  refine .cons (.int _) <|
    .cons (.int _) <| .nil

theorem Type50.typed {old : Bool} {v : Version} {x : Type50} (h : Type50.WF v x) : HasType (Declares old) (.cls (lit "Type50")) (Type50.object x) := by
  refine .cls .Type50 ?_
  refine .cons (.int _) <|
    .cons (.list_map (fun y _ => AttackOrArmor.typed y)) <|
    .cons (.list_map (fun y _ => AttackOrArmor.typed y)) <|
    .cons (.int _) <|
    .cons (.float _) <|
    .cons (.float _) <|
    .cons (.float _) <|
    .cons (.float _) <|
    .cons (.int _) <|
    .cons (.int _) <|
    .cons (.int _) <|
    .cons (.int _) <|
    .cons (.tuple_map (n := 3) rfl h.graphic_displacement.1 (fun _ _ => .float _)) <|
    .cons (.int _) <|
    .cons (.float _) <|
    .cons (.float _) <|
    .cons (.int _) <|
    .cons (.int _) <|
    .cons (.int _) <|
    .cons (.float _) <|
    .cons (.float _) <|
    .cons (.float _) <|
    .cons (.float _) <|
    .cons (.float _) <|
    .cons (.int _) <|
    .cons (.float _) <|
    .cons (.int _) <| .nil

theorem Projectile.typed {old : Bool} (x : Projectile) : HasType (Declares old) (.cls (lit "Projectile")) (Projectile.object x) := by
  refine .cls .Projectile ?_
  refine .cons (.int _) <|
    .cons (.int _) <|
    .cons (.int _) <|
    .cons (.int _) <|
    .cons (.int _) <|
    .cons (.float _) <| .nil

theorem ResourceCost.typed {old : Bool} (x : ResourceCost) : HasType (Declares old) (.cls (lit "ResourceCost")) (ResourceCost.object x) := by
  refine .cls .ResourceCost ?_
  refine .cons (.int _) <|
    .cons (.int _) <|
    .cons (.int _) <| .nil

theorem TrainLocation.typed {old : Bool} (x : TrainLocation) : HasType (Declares old) (.cls (lit "TrainLocation")) (TrainLocation.object x) := by
  refine .cls .TrainLocation ?_
  refine .cons (.int _) <|
    .cons (.int _) <|
    .cons (.int _) <|
    .cons (.int _) <| .nil

theorem Creatable.typed {v : Version} {k : Int} {x : Creatable} (h : Creatable.WFWith v k x) : HasType (Declares (decide (v.num < 84))) (.cls (lit "Creatable")) (Creatable.object (decide (v.num < 84)) x) := by
  refine .cls .Creatable ?_
  refine .cons (.tuple_map (n := 3) rfl h.resource_costs.1 (fun y _ => ResourceCost.typed y)) <|
    .cons (.list_map (fun y _ => TrainLocation.typed y)) <|
    .cons (.float _) <|
    .cons (.float _) <|
    .cons (.int _) <|
    .cons (.int _) <|
    .cons (.int _) <|
    .cons (.int _) <|
    .cons (.int _) <|
    .cons (.int _) <|
    .cons (.int _) <|
    .cons (.float _) <|
    .cons (.float _) <|
    .cons (.int _) <|
    .cons (.int _) <|
    .cons (.int _) <|
    .cons (.int _) <|
    .cons (.int _) <|
    .cons ?_ <|
    .cons (.int _) <|
    .cons (.int _) <|
    .cons (.int _) <|
    .cons (.int _) <|
    .cons (.float _) <|
    .cons (.float _) <|
    .cons (.float _) <|
    .cons (.float _) <|
    .cons (.int _) <|
    .cons (.tuple_map (n := 3) rfl h.projectile_spawning_area.1 (fun _ _ => .float _)) <|
    .cons (.int _) <|
    .cons (.int _) <|
    .cons (.int _) <|
    .cons (.int _) <| .nil
  have h0 := h.invulnerability_level
  unfold Since at h0
  unfold invulnerabilityObj
  by_cases hv : v.num < 84
  · rw [if_neg (by omega)] at h0
    rw [if_pos (show decide (v.num < 84) = true from decide_eq_true hv), if_pos ⟨decide_eq_true hv, h0⟩]
    exact .int _
  · rw [if_neg (show ¬ decide (v.num < 84) = true from fun k => hv (of_decide_eq_true k)), if_neg (fun k => hv (of_decide_eq_true k.1))]
    exact .float _

theorem BuildingAnnex.typed {old : Bool} (x : BuildingAnnex) : HasType (Declares old) (.cls (lit "BuildingAnnex")) (BuildingAnnex.object x) := by
  refine .cls .BuildingAnnex ?_
  refine .cons (.int _) <|
    .cons (.float _) <|
    .cons (.float _) <| .nil

theorem Building.typed {old : Bool} {v : Version} {x : Building} (h : Building.WF v x) : HasType (Declares old) (.cls (lit "Building")) (Building.object x) := by
  refine .cls .Building ?_
  refine .cons (.int _) <|
    .cons (.int _) <|
    .cons (.int _) <|
    .cons (.int _) <|
    .cons (.int _) <|
    .cons (.int _) <|
    .cons (.int _) <|
    .cons (.int _) <|
    .cons (.int _) <|
    .cons (.int _) <|
    .cons (.int _) <|
    .cons (.int _) <|
    .cons (.int _) <|
    .cons (.int _) <|
    .cons (.tuple_map (n := 4) rfl h.annexes.1 (fun y _ => BuildingAnnex.typed y)) <|
    .cons (.int _) <|
    .cons (.int _) <|
    .cons (.int _) <|
    .cons (.int _) <|
    .cons (.int _) <|
    .cons (.int _) <|
    .cons (.int _) <|
    .cons (.float _) <|
    .cons (.float _) <|
    .cons (.int _) <|
    .cons (.tuple_map (n := 6) rfl h.looting_table.1 (fun _ _ => .int _)) <| .nil

theorem Unit.typed {v : Version} {x : Unit} (h : Unit.WF v x) : HasType (Declares (decide (v.num < 84))) (.cls (lit "Unit")) (Unit.object (decide (v.num < 84)) x) := by
  refine .cls .Unit ?_
  refine .cons (.int _) <|
    .cons (.int _) <|
    .cons (.int _) <|
    .cons (.int _) <|
    .cons (.int _) <|
    .cons (.tuple_map (n := 2) rfl h.standing_graphic.1 (fun _ _ => .int _)) <|
    .cons (.int _) <|
    .cons (.int _) <|
    .cons (.int _) <|
    .cons (.int _) <|
    .cons (.float _) <|
    .cons (.int _) <|
    .cons (.float _) <|
    .cons (.float _) <|
    .cons (.float _) <|
    .cons (.int _) <|
    .cons (.int _) <|
    .cons (.int _) <|
    .cons (.int _) <|
    .cons (.int _) <|
    .cons (.int _) <|
    .cons (.int _) <|
    .cons (.int _) <|
    .cons (.int _) <|
    .cons (.int _) <|
    .cons (.int _) <|
    .cons (.tuple_map (n := 2) rfl h.placement_side_terrain.1 (fun _ _ => .int _)) <|
    .cons (.tuple_map (n := 2) rfl h.placement_terrain.1 (fun _ _ => .int _)) <|
    .cons (.tuple_map (n := 2) rfl h.clearance_size.1 (fun _ _ => .float _)) <|
    .cons (.int _) <|
    .cons (.int _) <|
    .cons (.int _) <|
    .cons (.int _) <|
    .cons (.int _) <|
    .cons (.float _) <|
    .cons (.int _) <|
    .cons (.int _) <|
    .cons (.int _) <|
    .cons (.int _) <|
    .cons (.int _) <|
    .cons (.float _) <|
    .cons (.int _) <|
    .cons (.int _) <|
    .cons (.int _) <|
    .cons (.int _) <|
    .cons (.int _) <|
    .cons (.int _) <|
    .cons (.int _) <|
    .cons (.int _) <|
    .cons (.int _) <|
    .cons (.int _) <|
    .cons (.int _) <|
    .cons (.int _) <|
    .cons (.int _) <|
    .cons (.int _) <|
    .cons (.int _) <|
    .cons (.int _) <|
    .cons (.float _) <|
    .cons (.float _) <|
    .cons (.float _) <|
    .cons (.int _) <|
    .cons (.int _) <|
    .cons (.tuple_map (n := 3) rfl h.resource_storages.1 (fun y _ => ResourceStorage.typed y)) <|
    .cons (.list_map (fun y _ => DamageGraphic.typed y)) <|
    .cons (.int _) <|
    .cons (.int _) <|
    .cons (.int _) <|
    .cons (.int _) <|
    .cons (.int _) <|
    .cons (.int _) <|
    .cons (.int _) <|
    .cons (.int _) <|
    .cons (.str _) <|
    .cons (.int _) <|
    .cons (.int _) <|
    .cons (.optObj fun z _ => .float _) <|
    .cons (.optObj fun z _ => DeadFish.typed z) <|
    .cons (.optObj fun z _ => Bird.typed z) <|
    .cons (.optObj fun z hz => Type50.typed (h.type_50.2 z hz)) <|
    .cons (.optObj fun z _ => Projectile.typed z) <|
    .cons (.optObj fun z hz => Creatable.typed (h.creatable.2 z hz)) <|
    .cons (.optObj fun z hz => Building.typed (h.building.2 z hz)) <| .nil

theorem UnitHeaders.typed {old : Bool} (x : UnitHeaders) : HasType (Declares old) (.cls (lit "UnitHeaders")) (UnitHeaders.object x) := by
  refine .cls .UnitHeaders ?_
  refine .cons (.int _) <|
    .cons (.optObj (fun y _ => .list_map (fun y _ => Task.typed y))) <| .nil

theorem Civ.typed {v : Version} {x : Civ} (h : Civ.WF v x) : HasType (Declares (decide (v.num < 84))) (.cls (lit "Civ")) (Civ.object (decide (v.num < 84)) x) := by
  refine .cls .Civ ?_
  refine .cons (.int _) <|
    .cons (.str _) <|
    .cons (.int _) <|
    .cons (.int _) <|
    .cons (.list_map (fun _ _ => .float _)) <|
    .cons (.int _) <|
    .cons (.list_map (fun y hy => .optObj fun z hz => Unit.typed (h.units.2 y hy z hz))) <| .nil

theorem DatFile.typed {v : Version} {x : DatFile} (h : DatFile.WFAt v x) : HasType (Declares (decide (v.num < 84))) (.cls (lit "DatFile")) (DatFile.object (decide (v.num < 84)) x) := by
  refine .cls .DatFile ?_
  refine .cons (.str _) <|
    .cons (.list_map (fun _ _ => .int _)) <|
    .cons (.list_map (fun _ _ => .int _)) <|
    .cons (.list_map (fun y _ => TerrainRestriction.typed y)) <|
    .cons (.list_map (fun y _ => PlayerColour.typed y)) <|
    .cons (.list_map (fun y _ => Sound.typed y)) <|
    .cons (.list_map (fun y hy => .optObj fun z hz => Graphic.typed (h.graphics.2 y hy z hz))) <|
    .cons (TerrainBlock.typed h.terrain_block) <|
    .cons (RandomMaps.typed _) <|
    .cons (.list_map (fun y _ => Effect.typed y)) <|
    .cons (.list_map (fun y _ => UnitHeaders.typed y)) <|
    .cons (.list_map (fun y hy => Civ.typed (h.civs.2 y hy))) <|
    .cons (.list_map (fun y hy => Tech.typed (h.techs.2 y hy))) <|
    .cons (.int _) <|
    .cons (.int _) <|
    .cons (.int _) <|
    .cons (.int _) <|
    .cons (.int _) <|
    .cons (.int _) <|
    .cons (.int _) <|
    .cons (TechTree.typed h.tech_tree) <| .nil

/-- `old` matters for `Creatable` only. -/
theorem Declares.change {old old' : Bool} {c : PyStr} {fs : List (PyStr × Ann)} (hc : c ≠ lit "Creatable") : Declares old c fs → Declares old' c fs
  | .EffectCommand => .EffectCommand
  | .Effect => .Effect
  | .SoundItem => .SoundItem
  | .Sound => .Sound
  | .PlayerColour => .PlayerColour
  | .GraphicDelta => .GraphicDelta
  | .GraphicAngleSound => .GraphicAngleSound
  | .Graphic => .Graphic
  | .TerrainPassGraphic => .TerrainPassGraphic
  | .TerrainRestriction => .TerrainRestriction
  | .FrameData => .FrameData
  | .Terrain => .Terrain
  | .TileSize => .TileSize
  | .TerrainBlock => .TerrainBlock
  | .MapUnit => .MapUnit
  | .MapTerrain => .MapTerrain
  | .MapLand => .MapLand
  | .MapElevation => .MapElevation
  | .MapInfo => .MapInfo
  | .RandomMaps => .RandomMaps
  | .ResearchResourceCost => .ResearchResourceCost
  | .ResearchLocation => .ResearchLocation
  | .Tech => .Tech
  | .Common => .Common
  | .TechTreeAge => .TechTreeAge
  | .BuildingConnection => .BuildingConnection
  | .UnitConnection => .UnitConnection
  | .ResearchConnection => .ResearchConnection
  | .TechTree => .TechTree
  | .Task => .Task
  | .ResourceStorage => .ResourceStorage
  | .DamageGraphic => .DamageGraphic
  | .DeadFish => .DeadFish
  | .Bird => .Bird
  | .AttackOrArmor => .AttackOrArmor
  | .Type50 => .Type50
  | .Projectile => .Projectile
  | .ResourceCost => .ResourceCost
  | .TrainLocation => .TrainLocation
  | .Creatable => absurd rfl hc
  | .BuildingAnnex => .BuildingAnnex
  | .Building => .Building
  | .Unit => .Unit
  | .UnitHeaders => .UnitHeaders
  | .Civ => .Civ
  | .DatFile => .DatFile

end Genie
