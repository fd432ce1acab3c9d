import Verif.Proof.Edits.Basic
import Verif.Proof.ConvertWF
/-! # Replacing a record inside another one (generated by `tools/gen_edit_slots.py`) -/

namespace Genie
open Layout
set_option linter.unusedVariables false
set_option linter.unusedSimpArgs false

theorem restrictions_get {l : List TerrainRestriction} {i n : Nat} {m : TerrainRestriction}
    (h : l[i]?.filter (·.passable_buildable_dmg_multiplier.length = n) = some m) :
    l[i]? = some m ∧ m.passable_buildable_dmg_multiplier.length = n := by
  cases hl : l[i]? with
  | none => rw [hl] at h; cases h
  | some r =>
    rw [hl] at h
    simp only [Option.filter_eq_some_iff, decide_eq_true_eq, Option.some.injEq] at h
    obtain ⟨rfl, h⟩ := h
    exact ⟨rfl, h⟩

theorem tasks_get {o : Option (List α)} {i : Nat} {m : α} (h : o.bind (·[i]?) = some m) : ∃ l, o = some l ∧ l[i]? = some m := by
  cases o with
  | none => cases h
  | some l => exact ⟨l, rfl, h⟩

theorem Slot.good_Effect_effect_commands (v : Version) (i : Nat) (x : Genie.Effect) (m : Genie.EffectCommand) (hx : Node.WF v (.record .Effect) x) (hs : (Slot.Effect_effect_commands i).Stored v)
    (hg : (Slot.Effect_effect_commands i).get x = some m) : (Slot.Effect_effect_commands i).Good v x m := by
  have hg : x.effect_commands[i]? = some m := hg
  exact {
    wf := AllOf.elem (hx : Genie.Effect.WF v x).effect_commands.2 hg
    self := by show { x with effect_commands := x.effect_commands.set i m } = x; rw [set_self hg]
    wf_set := fun y hy _ => { (hx : Genie.Effect.WF v x) with effect_commands := UpTo.set hx.effect_commands hy i }
    get_set := fun y _ => get_set_elem hg y
    splits := by
      show Splits _ (fun y => Effect.layout v { x with effect_commands := x.effect_commands.set i y }) (EffectCommand.layout v)
      simp only [Effect.layout, countU8_set, countI16_set, countI32_set, countU32_set, List.length_set]
      walk (Splits.elem hg) }

theorem Slot.good_Sound_items (v : Version) (i : Nat) (x : Genie.Sound) (m : Genie.SoundItem) (hx : Node.WF v (.record .Sound) x) (hs : (Slot.Sound_items i).Stored v)
    (hg : (Slot.Sound_items i).get x = some m) : (Slot.Sound_items i).Good v x m := by
  have hg : x.items[i]? = some m := hg
  exact {
    wf := AllOf.elem (hx : Genie.Sound.WF v x).items.2 hg
    self := by show { x with items := x.items.set i m } = x; rw [set_self hg]
    wf_set := fun y hy _ => { (hx : Genie.Sound.WF v x) with items := UpTo.set hx.items hy i }
    get_set := fun y _ => get_set_elem hg y
    splits := by
      show Splits _ (fun y => Sound.layout v { x with items := x.items.set i y }) (SoundItem.layout v)
      simp only [Sound.layout, countU8_set, countI16_set, countI32_set, countU32_set, List.length_set]
      walk (Splits.elem hg) }

theorem Slot.good_Graphic_deltas (v : Version) (i : Nat) (x : Genie.Graphic) (m : Genie.GraphicDelta) (hx : Node.WF v (.record .Graphic) x) (hs : (Slot.Graphic_deltas i).Stored v)
    (hg : (Slot.Graphic_deltas i).get x = some m) : (Slot.Graphic_deltas i).Good v x m := by
  have hg : x.deltas[i]? = some m := hg
  exact {
    wf := AllOf.elem (hx : Genie.Graphic.WF v x).deltas.2 hg
    self := by show { x with deltas := x.deltas.set i m } = x; rw [set_self hg]
    wf_set := fun y hy _ => { (hx : Genie.Graphic.WF v x) with deltas := UpTo.set hx.deltas hy i }
    get_set := fun y _ => get_set_elem hg y
    splits := by
      show Splits _ (fun y => Graphic.layout v { x with deltas := x.deltas.set i y }) (GraphicDelta.layout v)
      simp only [Graphic.layout, countU8_set, countI16_set, countI32_set, countU32_set, List.length_set]
      walk (Splits.elem hg) }

theorem Slot.good_Graphic_angle_sounds (v : Version) (i : Nat) (x : Genie.Graphic) (m : Genie.GraphicAngleSound) (hx : Node.WF v (.record .Graphic) x) (hs : (Slot.Graphic_angle_sounds i).Stored v)
    (hg : (Slot.Graphic_angle_sounds i).get x = some m) : (Slot.Graphic_angle_sounds i).Good v x m := by
  have hg : x.angle_sounds[i]? = some m := hg
  have hx : Genie.Graphic.WF v x := hx
  exact {
    wf := AllOf.elem hx.angle_sounds.1 hg
    self := by show { x with angle_sounds := x.angle_sounds.set i m } = x; rw [set_self hg]
    wf_set := fun y hy _ => { hx with angle_sounds := ⟨AllOf.set hx.angle_sounds.1 hy i, by dsimp only [Slot.set]; rw [List.length_set]; exact hx.angle_sounds.2⟩ }
    get_set := fun y _ => get_set_elem hg y
    splits := by
      show Splits _ (fun y => Graphic.layout v { x with angle_sounds := x.angle_sounds.set i y }) (GraphicAngleSound.layout v)
      simp only [Graphic.layout, countU8_set, countI16_set, countI32_set, countU32_set, List.length_set]
      walk (Splits.elem hg) }

theorem Slot.good_Terrain_frame_data (v : Version) (i : Nat) (x : Genie.Terrain) (m : Genie.FrameData) (hx : Node.WF v (.record .Terrain) x) (hs : (Slot.Terrain_frame_data i).Stored v)
    (hg : (Slot.Terrain_frame_data i).get x = some m) : (Slot.Terrain_frame_data i).Good v x m := by
  have hg : x.frame_data[i]? = some m := hg
  exact {
    wf := AllOf.elem (hx : Genie.Terrain.WF v x).frame_data.2 hg
    self := by show { x with frame_data := x.frame_data.set i m } = x; rw [set_self hg]
    wf_set := fun y hy _ => { (hx : Genie.Terrain.WF v x) with frame_data := Exactly.set hx.frame_data hy i }
    get_set := fun y _ => get_set_elem hg y
    splits := by
      show Splits _ (fun y => Terrain.layout v { x with frame_data := x.frame_data.set i y }) (FrameData.layout v)
      simp only [Terrain.layout, countU8_set, countI16_set, countI32_set, countU32_set, List.length_set]
      walk (Splits.elem hg) }

theorem Slot.good_TerrainBlock_tile_sizes (v : Version) (i : Nat) (x : Genie.TerrainBlock) (m : Genie.TileSize) (hx : Node.WF v (.record .TerrainBlock) x) (hs : (Slot.TerrainBlock_tile_sizes i).Stored v)
    (hg : (Slot.TerrainBlock_tile_sizes i).get x = some m) : (Slot.TerrainBlock_tile_sizes i).Good v x m := by
  have hg : x.tile_sizes[i]? = some m := hg
  exact {
    wf := AllOf.elem (hx : Genie.TerrainBlock.WF v x).tile_sizes.2 hg
    self := by show { x with tile_sizes := x.tile_sizes.set i m } = x; rw [set_self hg]
    wf_set := fun y hy _ => { (hx : Genie.TerrainBlock.WF v x) with tile_sizes := Exactly.set hx.tile_sizes hy i }
    get_set := fun y _ => get_set_elem hg y
    splits := by
      show Splits _ (fun y => TerrainBlock.layout v { x with tile_sizes := x.tile_sizes.set i y }) (TileSize.layout v)
      simp only [TerrainBlock.layout, countU8_set, countI16_set, countI32_set, countU32_set, List.length_set]
      walk (Splits.elem hg) }

theorem Slot.good_TerrainBlock_terrains (v : Version) (i : Nat) (x : Genie.TerrainBlock) (m : Genie.Terrain) (hx : Node.WF v (.record .TerrainBlock) x) (hs : (Slot.TerrainBlock_terrains i).Stored v)
    (hg : (Slot.TerrainBlock_terrains i).get x = some m) : (Slot.TerrainBlock_terrains i).Good v x m := by
  have hg : x.terrains[i]? = some m := hg
  exact {
    wf := AllOf.elem (hx : Genie.TerrainBlock.WF v x).terrains.2 hg
    self := by show { x with terrains := x.terrains.set i m } = x; rw [set_self hg]
    wf_set := fun y hy _ => { (hx : Genie.TerrainBlock.WF v x) with terrains := Exactly.set hx.terrains hy i }
    get_set := fun y _ => get_set_elem hg y
    splits := by
      show Splits _ (fun y => TerrainBlock.layout v { x with terrains := x.terrains.set i y }) (Terrain.layout v)
      simp only [TerrainBlock.layout, countU8_set, countI16_set, countI32_set, countU32_set, List.length_set]
      walk (Splits.elem hg) }

theorem Slot.good_MapInfo_map_lands (v : Version) (i : Nat) (x : Genie.MapInfo) (m : Genie.MapLand) (hx : Node.WF v (.record .MapInfo) x) (hs : (Slot.MapInfo_map_lands i).Stored v)
    (hg : (Slot.MapInfo_map_lands i).get x = some m) : (Slot.MapInfo_map_lands i).Good v x m := by
  have hg : x.map_lands[i]? = some m := hg
  have hx : MapInfo.WF v x := hx
  exact {
    wf := AllOf.elem hx.map_lands.2 hg
    self := by show { x with map_lands := x.map_lands.set i m } = x; rw [set_self hg]
    wf_set := fun y hy _ => { hx with
      map_lands := UpTo.set hx.map_lands hy i
      map_lands_size := by dsimp only [Slot.set]; rw [List.length_set]; exact hx.map_lands_size }
    get_set := fun y _ => get_set_elem hg y
    splits := by
      show Splits _ (fun y => MapInfo.layout v { x with map_lands := x.map_lands.set i y }) (MapLand.layout v)
      simp only [MapInfo.layout]
      walk (Splits.elem hg) }

theorem Slot.good_MapInfo_map_terrains (v : Version) (i : Nat) (x : Genie.MapInfo) (m : Genie.MapTerrain) (hx : Node.WF v (.record .MapInfo) x) (hs : (Slot.MapInfo_map_terrains i).Stored v)
    (hg : (Slot.MapInfo_map_terrains i).get x = some m) : (Slot.MapInfo_map_terrains i).Good v x m := by
  have hg : x.map_terrains[i]? = some m := hg
  have hx : MapInfo.WF v x := hx
  exact {
    wf := AllOf.elem hx.map_terrains.2 hg
    self := by show { x with map_terrains := x.map_terrains.set i m } = x; rw [set_self hg]
    wf_set := fun y hy _ => { hx with
      map_terrains := UpTo.set hx.map_terrains hy i
      map_terrains_size := by dsimp only [Slot.set]; rw [List.length_set]; exact hx.map_terrains_size }
    get_set := fun y _ => get_set_elem hg y
    splits := by
      show Splits _ (fun y => MapInfo.layout v { x with map_terrains := x.map_terrains.set i y }) (MapTerrain.layout v)
      simp only [MapInfo.layout]
      walk (Splits.elem hg) }

theorem Slot.good_MapInfo_map_units (v : Version) (i : Nat) (x : Genie.MapInfo) (m : Genie.MapUnit) (hx : Node.WF v (.record .MapInfo) x) (hs : (Slot.MapInfo_map_units i).Stored v)
    (hg : (Slot.MapInfo_map_units i).get x = some m) : (Slot.MapInfo_map_units i).Good v x m := by
  have hg : x.map_units[i]? = some m := hg
  have hx : MapInfo.WF v x := hx
  exact {
    wf := AllOf.elem hx.map_units.2 hg
    self := by show { x with map_units := x.map_units.set i m } = x; rw [set_self hg]
    wf_set := fun y hy _ => { hx with
      map_units := UpTo.set hx.map_units hy i
      map_units_size := by dsimp only [Slot.set]; rw [List.length_set]; exact hx.map_units_size }
    get_set := fun y _ => get_set_elem hg y
    splits := by
      show Splits _ (fun y => MapInfo.layout v { x with map_units := x.map_units.set i y }) (MapUnit.layout v)
      simp only [MapInfo.layout]
      walk (Splits.elem hg) }

theorem Slot.good_MapInfo_map_elevations (v : Version) (i : Nat) (x : Genie.MapInfo) (m : Genie.MapElevation) (hx : Node.WF v (.record .MapInfo) x) (hs : (Slot.MapInfo_map_elevations i).Stored v)
    (hg : (Slot.MapInfo_map_elevations i).get x = some m) : (Slot.MapInfo_map_elevations i).Good v x m := by
  have hg : x.map_elevations[i]? = some m := hg
  have hx : MapInfo.WF v x := hx
  exact {
    wf := AllOf.elem hx.map_elevations.2 hg
    self := by show { x with map_elevations := x.map_elevations.set i m } = x; rw [set_self hg]
    wf_set := fun y hy _ => { hx with
      map_elevations := UpTo.set hx.map_elevations hy i
      map_elevations_size := by dsimp only [Slot.set]; rw [List.length_set]; exact hx.map_elevations_size }
    get_set := fun y _ => get_set_elem hg y
    splits := by
      show Splits _ (fun y => MapInfo.layout v { x with map_elevations := x.map_elevations.set i y }) (MapElevation.layout v)
      simp only [MapInfo.layout]
      walk (Splits.elem hg) }

theorem Slot.good_RandomMaps_map_info_1 (v : Version) (i : Nat) (x : Genie.RandomMaps) (m : Genie.MapInfo) (hx : Node.WF v (.record .RandomMaps) x) (hs : (Slot.RandomMaps_map_info_1 i).Stored v)
    (hg : (Slot.RandomMaps_map_info_1 i).get x = some m) : (Slot.RandomMaps_map_info_1 i).Good v x m := by
  have hg : x.map_info_1[i]? = some m := hg
  have hx : Genie.RandomMaps.WF v x := hx
  exact {
    wf := AllOf.elem hx.map_info_1.2 hg
    self := by show { x with map_info_1 := x.map_info_1.set i m } = x; rw [set_self hg]
    wf_set := fun y hy _ => { hx with
      map_info_1 := UpTo.set hx.map_info_1 hy i
      map_info_2 := ⟨by dsimp only [Slot.set]; rw [List.length_set]; exact hx.map_info_2.1, hx.map_info_2.2⟩ }
    get_set := fun y _ => get_set_elem hg y
    splits := by
      show Splits _ (fun y => RandomMaps.layout v { x with map_info_1 := x.map_info_1.set i y }) (MapInfo.layout v)
      simp only [RandomMaps.layout, countU8_set, countI16_set, countI32_set, countU32_set, List.length_set]
      walk (Splits.elem hg) }

theorem Slot.good_RandomMaps_map_info_2 (v : Version) (i : Nat) (x : Genie.RandomMaps) (m : Genie.MapInfo) (hx : Node.WF v (.record .RandomMaps) x) (hs : (Slot.RandomMaps_map_info_2 i).Stored v)
    (hg : (Slot.RandomMaps_map_info_2 i).get x = some m) : (Slot.RandomMaps_map_info_2 i).Good v x m := by
  have hg : x.map_info_2[i]? = some m := hg
  have hx : Genie.RandomMaps.WF v x := hx
  exact {
    wf := AllOf.elem hx.map_info_2.2 hg
    self := by show { x with map_info_2 := x.map_info_2.set i m } = x; rw [set_self hg]
    wf_set := fun y hy _ => { hx with
      map_info_2 := ⟨by dsimp only [Slot.set]; rw [List.length_set]; exact hx.map_info_2.1, AllOf.set hx.map_info_2.2 hy i⟩ }
    get_set := fun y _ => get_set_elem hg y
    splits := by
      show Splits _ (fun y => RandomMaps.layout v { x with map_info_2 := x.map_info_2.set i y }) (MapInfo.layout v)
      simp only [RandomMaps.layout, countU8_set, countI16_set, countI32_set, countU32_set, List.length_set]
      walk (Splits.elem hg) }

theorem Slot.good_Tech_resource_costs (v : Version) (i : Nat) (x : Genie.Tech) (m : Genie.ResearchResourceCost) (hx : Node.WF v (.record .Tech) x) (hs : (Slot.Tech_resource_costs i).Stored v)
    (hg : (Slot.Tech_resource_costs i).get x = some m) : (Slot.Tech_resource_costs i).Good v x m := by
  have hg : x.resource_costs[i]? = some m := hg
  exact {
    wf := AllOf.elem (hx : Genie.Tech.WF v x).resource_costs.2 hg
    self := by show { x with resource_costs := x.resource_costs.set i m } = x; rw [set_self hg]
    wf_set := fun y hy _ => { (hx : Genie.Tech.WF v x) with resource_costs := Exactly.set hx.resource_costs hy i }
    get_set := fun y _ => get_set_elem hg y
    splits := by
      show Splits _ (fun y => Tech.layout v { x with resource_costs := x.resource_costs.set i y }) (ResearchResourceCost.layout v)
      simp only [Tech.layout, countU8_set, countI16_set, countI32_set, countU32_set, List.length_set, Tech.location84]
      split <;> walk (Splits.elem hg) }

theorem Slot.good_Tech_research_locations (v : Version) (i : Nat) (x : Genie.Tech) (m : Genie.ResearchLocation) (hx : Node.WF v (.record .Tech) x) (hs : (Slot.Tech_research_locations i).Stored v)
    (hg : (Slot.Tech_research_locations i).get x = some m) : (Slot.Tech_research_locations i).Good v x m := by
  have hg : x.research_locations[i]? = some m := hg
  have hx : Genie.Tech.WF v x := hx
  have hs : 88 ≤ v.num := hs
  exact {
    wf := AllOf.elem (hx.research_locations.of_ge' hs).2 hg
    self := by show { x with research_locations := x.research_locations.set i m } = x; rw [set_self hg]
    wf_set := fun y hy _ => { hx with research_locations := Since.of_ge hs (UpTo.set (hx.research_locations.of_ge' hs) hy i) }
    get_set := fun y _ => get_set_elem hg y
    splits := by
      show Splits _ (fun y => Tech.layout v { x with research_locations := x.research_locations.set i y }) (ResearchLocation.layout v)
      simp only [Tech.layout, countU8_set, countI16_set, countI32_set, countU32_set, List.length_set, if_pos hs]
      walk (Splits.elem hg) }

theorem Slot.good_TechTreeAge_common (v : Version) (x : Genie.TechTreeAge) (m : Genie.Common) (hx : Node.WF v (.record .TechTreeAge) x) (hs : (Slot.TechTreeAge_common).Stored v)
    (hg : (Slot.TechTreeAge_common).get x = some m) : (Slot.TechTreeAge_common).Good v x m := by
  cases hg
  exact {
    wf := hx.common
    self := rfl
    wf_set := fun y hy _ => { (hx : Genie.TechTreeAge.WF v x) with common := hy }
    get_set := fun _ _ => rfl
    splits := by
      show Splits _ (fun y => TechTreeAge.layout v { x with common := y }) (Common.layout v)
      simp only [TechTreeAge.layout]
      walk (Splits.here) }

theorem Slot.good_BuildingConnection_common (v : Version) (x : Genie.BuildingConnection) (m : Genie.Common) (hx : Node.WF v (.record .BuildingConnection) x) (hs : (Slot.BuildingConnection_common).Stored v)
    (hg : (Slot.BuildingConnection_common).get x = some m) : (Slot.BuildingConnection_common).Good v x m := by
  cases hg
  exact {
    wf := hx.common
    self := rfl
    wf_set := fun y hy _ => { (hx : Genie.BuildingConnection.WF v x) with common := hy }
    get_set := fun _ _ => rfl
    splits := by
      show Splits _ (fun y => BuildingConnection.layout v { x with common := y }) (Common.layout v)
      simp only [BuildingConnection.layout]
      walk (Splits.here) }

theorem Slot.good_UnitConnection_common (v : Version) (x : Genie.UnitConnection) (m : Genie.Common) (hx : Node.WF v (.record .UnitConnection) x) (hs : (Slot.UnitConnection_common).Stored v)
    (hg : (Slot.UnitConnection_common).get x = some m) : (Slot.UnitConnection_common).Good v x m := by
  cases hg
  exact {
    wf := hx.common
    self := rfl
    wf_set := fun y hy _ => { (hx : Genie.UnitConnection.WF v x) with common := hy }
    get_set := fun _ _ => rfl
    splits := by
      show Splits _ (fun y => UnitConnection.layout v { x with common := y }) (Common.layout v)
      simp only [UnitConnection.layout]
      walk (Splits.here) }

theorem Slot.good_ResearchConnection_common (v : Version) (x : Genie.ResearchConnection) (m : Genie.Common) (hx : Node.WF v (.record .ResearchConnection) x) (hs : (Slot.ResearchConnection_common).Stored v)
    (hg : (Slot.ResearchConnection_common).get x = some m) : (Slot.ResearchConnection_common).Good v x m := by
  cases hg
  exact {
    wf := hx.common
    self := rfl
    wf_set := fun y hy _ => { (hx : Genie.ResearchConnection.WF v x) with common := hy }
    get_set := fun _ _ => rfl
    splits := by
      show Splits _ (fun y => ResearchConnection.layout v { x with common := y }) (Common.layout v)
      simp only [ResearchConnection.layout]
      walk (Splits.here) }

theorem Slot.good_TechTree_tech_tree_ages (v : Version) (i : Nat) (x : Genie.TechTree) (m : Genie.TechTreeAge) (hx : Node.WF v (.record .TechTree) x) (hs : (Slot.TechTree_tech_tree_ages i).Stored v)
    (hg : (Slot.TechTree_tech_tree_ages i).get x = some m) : (Slot.TechTree_tech_tree_ages i).Good v x m := by
  have hg : x.tech_tree_ages[i]? = some m := hg
  exact {
    wf := AllOf.elem (hx : Genie.TechTree.WF v x).tech_tree_ages.2 hg
    self := by show { x with tech_tree_ages := x.tech_tree_ages.set i m } = x; rw [set_self hg]
    wf_set := fun y hy _ => { (hx : Genie.TechTree.WF v x) with tech_tree_ages := UpTo.set hx.tech_tree_ages hy i }
    get_set := fun y _ => get_set_elem hg y
    splits := by
      show Splits _ (fun y => TechTree.layout v { x with tech_tree_ages := x.tech_tree_ages.set i y }) (TechTreeAge.layout v)
      simp only [TechTree.layout, countU8_set, countI16_set, countI32_set, countU32_set, List.length_set]
      walk (Splits.elem hg) }

theorem Slot.good_TechTree_building_connections (v : Version) (i : Nat) (x : Genie.TechTree) (m : Genie.BuildingConnection) (hx : Node.WF v (.record .TechTree) x) (hs : (Slot.TechTree_building_connections i).Stored v)
    (hg : (Slot.TechTree_building_connections i).get x = some m) : (Slot.TechTree_building_connections i).Good v x m := by
  have hg : x.building_connections[i]? = some m := hg
  exact {
    wf := AllOf.elem (hx : Genie.TechTree.WF v x).building_connections.2 hg
    self := by show { x with building_connections := x.building_connections.set i m } = x; rw [set_self hg]
    wf_set := fun y hy _ => { (hx : Genie.TechTree.WF v x) with building_connections := UpTo.set hx.building_connections hy i }
    get_set := fun y _ => get_set_elem hg y
    splits := by
      show Splits _ (fun y => TechTree.layout v { x with building_connections := x.building_connections.set i y }) (BuildingConnection.layout v)
      simp only [TechTree.layout, countU8_set, countI16_set, countI32_set, countU32_set, List.length_set]
      walk (Splits.elem hg) }

theorem Slot.good_TechTree_unit_connections (v : Version) (i : Nat) (x : Genie.TechTree) (m : Genie.UnitConnection) (hx : Node.WF v (.record .TechTree) x) (hs : (Slot.TechTree_unit_connections i).Stored v)
    (hg : (Slot.TechTree_unit_connections i).get x = some m) : (Slot.TechTree_unit_connections i).Good v x m := by
  have hg : x.unit_connections[i]? = some m := hg
  exact {
    wf := AllOf.elem (hx : Genie.TechTree.WF v x).unit_connections.2 hg
    self := by show { x with unit_connections := x.unit_connections.set i m } = x; rw [set_self hg]
    wf_set := fun y hy _ => { (hx : Genie.TechTree.WF v x) with unit_connections := UpTo.set hx.unit_connections hy i }
    get_set := fun y _ => get_set_elem hg y
    splits := by
      show Splits _ (fun y => TechTree.layout v { x with unit_connections := x.unit_connections.set i y }) (UnitConnection.layout v)
      simp only [TechTree.layout, countU8_set, countI16_set, countI32_set, countU32_set, List.length_set]
      walk (Splits.elem hg) }

theorem Slot.good_TechTree_research_connections (v : Version) (i : Nat) (x : Genie.TechTree) (m : Genie.ResearchConnection) (hx : Node.WF v (.record .TechTree) x) (hs : (Slot.TechTree_research_connections i).Stored v)
    (hg : (Slot.TechTree_research_connections i).get x = some m) : (Slot.TechTree_research_connections i).Good v x m := by
  have hg : x.research_connections[i]? = some m := hg
  exact {
    wf := AllOf.elem (hx : Genie.TechTree.WF v x).research_connections.2 hg
    self := by show { x with research_connections := x.research_connections.set i m } = x; rw [set_self hg]
    wf_set := fun y hy _ => { (hx : Genie.TechTree.WF v x) with research_connections := UpTo.set hx.research_connections hy i }
    get_set := fun y _ => get_set_elem hg y
    splits := by
      show Splits _ (fun y => TechTree.layout v { x with research_connections := x.research_connections.set i y }) (ResearchConnection.layout v)
      simp only [TechTree.layout, countU8_set, countI16_set, countI32_set, countU32_set, List.length_set]
      walk (Splits.elem hg) }

theorem Slot.good_Bird_tasks (v : Version) (i : Nat) (x : Genie.Bird) (m : Genie.Task) (hx : Node.WF v (.record .Bird) x) (hs : (Slot.Bird_tasks i).Stored v)
    (hg : (Slot.Bird_tasks i).get x = some m) : (Slot.Bird_tasks i).Good v x m := by
  have hg : x.tasks[i]? = some m := hg
  exact {
    wf := AllOf.elem (hx : Genie.Bird.WF v x).tasks.2 hg
    self := by show { x with tasks := x.tasks.set i m } = x; rw [set_self hg]
    wf_set := fun y hy _ => { (hx : Genie.Bird.WF v x) with tasks := UpTo.set hx.tasks hy i }
    get_set := fun y _ => get_set_elem hg y
    splits := by
      show Splits _ (fun y => Bird.layout v { x with tasks := x.tasks.set i y }) (Task.layout v)
      simp only [Bird.layout, countU8_set, countI16_set, countI32_set, countU32_set, List.length_set]
      walk (Splits.elem hg) }

theorem Slot.good_Type50_attacks (v : Version) (i : Nat) (x : Genie.Type50) (m : Genie.AttackOrArmor) (hx : Node.WF v (.record .Type50) x) (hs : (Slot.Type50_attacks i).Stored v)
    (hg : (Slot.Type50_attacks i).get x = some m) : (Slot.Type50_attacks i).Good v x m := by
  have hg : x.attacks[i]? = some m := hg
  exact {
    wf := AllOf.elem (hx : Genie.Type50.WF v x).attacks.2 hg
    self := by show { x with attacks := x.attacks.set i m } = x; rw [set_self hg]
    wf_set := fun y hy _ => { (hx : Genie.Type50.WF v x) with attacks := UpTo.set hx.attacks hy i }
    get_set := fun y _ => get_set_elem hg y
    splits := by
      show Splits _ (fun y => Type50.layout v { x with attacks := x.attacks.set i y }) (AttackOrArmor.layout v)
      simp only [Type50.layout, countU8_set, countI16_set, countI32_set, countU32_set, List.length_set]
      walk (Splits.elem hg) }

theorem Slot.good_Type50_armours (v : Version) (i : Nat) (x : Genie.Type50) (m : Genie.AttackOrArmor) (hx : Node.WF v (.record .Type50) x) (hs : (Slot.Type50_armours i).Stored v)
    (hg : (Slot.Type50_armours i).get x = some m) : (Slot.Type50_armours i).Good v x m := by
  have hg : x.armours[i]? = some m := hg
  exact {
    wf := AllOf.elem (hx : Genie.Type50.WF v x).armours.2 hg
    self := by show { x with armours := x.armours.set i m } = x; rw [set_self hg]
    wf_set := fun y hy _ => { (hx : Genie.Type50.WF v x) with armours := UpTo.set hx.armours hy i }
    get_set := fun y _ => get_set_elem hg y
    splits := by
      show Splits _ (fun y => Type50.layout v { x with armours := x.armours.set i y }) (AttackOrArmor.layout v)
      simp only [Type50.layout, countU8_set, countI16_set, countI32_set, countU32_set, List.length_set]
      walk (Splits.elem hg) }

theorem Slot.good_Creatable_resource_costs (v : Version) (i : Nat) (x : Genie.Creatable) (m : Genie.ResourceCost) (hx : Node.WF v (.record .Creatable) x) (hs : (Slot.Creatable_resource_costs i).Stored v)
    (hg : (Slot.Creatable_resource_costs i).get x = some m) : (Slot.Creatable_resource_costs i).Good v x m := by
  have hg : x.resource_costs[i]? = some m := hg
  obtain ⟨hk, hx⟩ : ∃ hk, Creatable.WFWith v hk x := hx
  exact {
    wf := AllOf.elem hx.resource_costs.2 hg
    self := by show { x with resource_costs := x.resource_costs.set i m } = x; rw [set_self hg]
    wf_set := fun y hy _ => ⟨hk, { hx with resource_costs := Exactly.set hx.resource_costs hy i }⟩
    get_set := fun y _ => get_set_elem hg y
    splits := by
      show Splits _ (fun y => Creatable.layout v { x with resource_costs := x.resource_costs.set i y }) (ResourceCost.layout v)
      simp only [Creatable.layout]
      exact Splits.left (Splits.elem hg) }

theorem Slot.good_Creatable_train_locations (v : Version) (i : Nat) (x : Genie.Creatable) (m : Genie.TrainLocation) (hx : Node.WF v (.record .Creatable) x) (hs : (Slot.Creatable_train_locations i).Stored v)
    (hg : (Slot.Creatable_train_locations i).get x = some m) : (Slot.Creatable_train_locations i).Good v x m := by
  have hg : x.train_locations[i]? = some m := hg
  obtain ⟨hk, hx⟩ : ∃ hk, Creatable.WFWith v hk x := hx
  have hs : 88 ≤ v.num := hs
  exact {
    wf := AllOf.elem (hx.train_locations.of_ge' hs).2 hg
    self := by show { x with train_locations := x.train_locations.set i m } = x; rw [set_self hg]
    wf_set := fun y hy _ => ⟨hk, { hx with train_locations := Since.of_ge hs (UpTo.set (hx.train_locations.of_ge' hs) hy i) }⟩
    get_set := fun y _ => get_set_elem hg y
    splits := by
      show Splits _ (fun y => Creatable.layout v { x with train_locations := x.train_locations.set i y }) (TrainLocation.layout v)
      simp only [Creatable.layout, countU8_set, countI16_set, countI32_set, countU32_set, List.length_set, if_pos hs]
      apply Splits.right
      walk (Splits.elem hg) }

theorem Slot.good_Building_annexes (v : Version) (i : Nat) (x : Genie.Building) (m : Genie.BuildingAnnex) (hx : Node.WF v (.record .Building) x) (hs : (Slot.Building_annexes i).Stored v)
    (hg : (Slot.Building_annexes i).get x = some m) : (Slot.Building_annexes i).Good v x m := by
  have hg : x.annexes[i]? = some m := hg
  exact {
    wf := AllOf.elem (hx : Genie.Building.WF v x).annexes.2 hg
    self := by show { x with annexes := x.annexes.set i m } = x; rw [set_self hg]
    wf_set := fun y hy _ => { (hx : Genie.Building.WF v x) with annexes := Exactly.set hx.annexes hy i }
    get_set := fun y _ => get_set_elem hg y
    splits := by
      show Splits _ (fun y => Building.layout v { x with annexes := x.annexes.set i y }) (BuildingAnnex.layout v)
      simp only [Building.layout, countU8_set, countI16_set, countI32_set, countU32_set, List.length_set]
      walk (Splits.elem hg) }

theorem Slot.good_Unit_resource_storages (v : Version) (i : Nat) (x : Genie.Unit) (m : Genie.ResourceStorage) (hx : Node.WF v (.record .Unit) x) (hs : (Slot.Unit_resource_storages i).Stored v)
    (hg : (Slot.Unit_resource_storages i).get x = some m) : (Slot.Unit_resource_storages i).Good v x m := by
  have hg : x.resource_storages[i]? = some m := hg
  exact {
    wf := AllOf.elem (hx : Genie.Unit.WF v x).resource_storages.2 hg
    self := by show { x with resource_storages := x.resource_storages.set i m } = x; rw [set_self hg]
    wf_set := fun y hy _ => { (hx : Genie.Unit.WF v x) with resource_storages := Exactly.set hx.resource_storages hy i }
    get_set := fun y _ => get_set_elem hg y
    splits := by
      show Splits _ (fun y => Unit.layout v { x with resource_storages := x.resource_storages.set i y }) (ResourceStorage.layout v)
      simp only [Unit.layout_eq, countU8_set, countI16_set, countI32_set, countU32_set, List.length_set]
      walk (Splits.elem hg) }

theorem Slot.good_Unit_damage_graphics (v : Version) (i : Nat) (x : Genie.Unit) (m : Genie.DamageGraphic) (hx : Node.WF v (.record .Unit) x) (hs : (Slot.Unit_damage_graphics i).Stored v)
    (hg : (Slot.Unit_damage_graphics i).get x = some m) : (Slot.Unit_damage_graphics i).Good v x m := by
  have hg : x.damage_graphics[i]? = some m := hg
  exact {
    wf := AllOf.elem (hx : Genie.Unit.WF v x).damage_graphics.2 hg
    self := by show { x with damage_graphics := x.damage_graphics.set i m } = x; rw [set_self hg]
    wf_set := fun y hy _ => { (hx : Genie.Unit.WF v x) with damage_graphics := UpTo.set hx.damage_graphics hy i }
    get_set := fun y _ => get_set_elem hg y
    splits := by
      show Splits _ (fun y => Unit.layout v { x with damage_graphics := x.damage_graphics.set i y }) (DamageGraphic.layout v)
      simp only [Unit.layout_eq, countU8_set, countI16_set, countI32_set, countU32_set, List.length_set]
      walk (Splits.elem hg) }

theorem Slot.good_Unit_dead_fish (v : Version) (x : Genie.Unit) (m : Genie.DeadFish) (hx : Node.WF v (.record .Unit) x) (hs : (Slot.Unit_dead_fish).Stored v)
    (hg : (Slot.Unit_dead_fish).get x = some m) : (Slot.Unit_dead_fish).Good v x m := by
  have hg : x.dead_fish = some m := hg
  have hx : Genie.Unit.WF v x := hx
  exact {
    wf := hx.dead_fish.2 m hg
    self := by show { x with dead_fish := some m } = x; rw [← hg]
    wf_set := fun y hy _ => { hx with dead_fish := PresentIff.set hx.dead_fish hg hy }
    get_set := fun _ _ => rfl
    splits := by
      have hc := hx.dead_fish.1.2 (by rw [hg]; rfl)
      show Splits _ (fun y => Unit.layout v { x with dead_fish := some y }) (DeadFish.layout v)
      simp only [Unit.layout_eq]
      walk (Splits.partFrom hc) }

theorem Slot.good_Unit_bird (v : Version) (x : Genie.Unit) (m : Genie.Bird) (hx : Node.WF v (.record .Unit) x) (hs : (Slot.Unit_bird).Stored v)
    (hg : (Slot.Unit_bird).get x = some m) : (Slot.Unit_bird).Good v x m := by
  have hg : x.bird = some m := hg
  have hx : Genie.Unit.WF v x := hx
  exact {
    wf := hx.bird.2 m hg
    self := by show { x with bird := some m } = x; rw [← hg]
    wf_set := fun y hy _ => { hx with bird := PresentIff.set hx.bird hg hy }
    get_set := fun _ _ => rfl
    splits := by
      have hc := hx.bird.1.2 (by rw [hg]; rfl)
      show Splits _ (fun y => Unit.layout v { x with bird := some y }) (Bird.layout v)
      simp only [Unit.layout_eq]
      walk (Splits.partFrom hc) }

theorem Slot.good_Unit_type_50 (v : Version) (x : Genie.Unit) (m : Genie.Type50) (hx : Node.WF v (.record .Unit) x) (hs : (Slot.Unit_type_50).Stored v)
    (hg : (Slot.Unit_type_50).get x = some m) : (Slot.Unit_type_50).Good v x m := by
  have hg : x.type_50 = some m := hg
  have hx : Genie.Unit.WF v x := hx
  exact {
    wf := hx.type_50.2 m hg
    self := by show { x with type_50 := some m } = x; rw [← hg]
    wf_set := fun y hy _ => { hx with type_50 := PresentIff.set hx.type_50 hg hy }
    get_set := fun _ _ => rfl
    splits := by
      have hc := hx.type_50.1.2 (by rw [hg]; rfl)
      show Splits _ (fun y => Unit.layout v { x with type_50 := some y }) (Type50.layout v)
      simp only [Unit.layout_eq]
      walk (Splits.partFrom hc) }

theorem Slot.good_Unit_projectile (v : Version) (x : Genie.Unit) (m : Genie.Projectile) (hx : Node.WF v (.record .Unit) x) (hs : (Slot.Unit_projectile).Stored v)
    (hg : (Slot.Unit_projectile).get x = some m) : (Slot.Unit_projectile).Good v x m := by
  have hg : x.projectile = some m := hg
  have hx : Genie.Unit.WF v x := hx
  exact {
    wf := hx.projectile.2 m hg
    self := by show { x with projectile := some m } = x; rw [← hg]
    wf_set := fun y hy _ => { hx with projectile := PresentIff.set hx.projectile hg hy }
    get_set := fun _ _ => rfl
    splits := by
      have hc := hx.projectile.1.2 (by rw [hg]; rfl)
      show Splits _ (fun y => Unit.layout v { x with projectile := some y }) (Projectile.layout v)
      simp only [Unit.layout_eq]
      walk (Splits.partOf hc) }

theorem Slot.good_Unit_creatable (v : Version) (x : Genie.Unit) (m : Genie.Creatable) (hx : Node.WF v (.record .Unit) x) (hs : (Slot.Unit_creatable).Stored v)
    (hg : (Slot.Unit_creatable).get x = some m) : (Slot.Unit_creatable).Good v x m := by
  have hg : x.creatable = some m := hg
  have hx : Genie.Unit.WF v x := hx
  have key : ∀ y : Creatable, y.train_locations.head?.map (·.hot_key_id) = (x.creatable.bind (·.train_locations.head?)).map (·.hot_key_id) →
      y.train_locations.head?.map (·.hot_key_id) = m.train_locations.head?.map (·.hot_key_id) := by
    intro y h; rw [h, hg]; rfl
  exact {
    wf := ⟨_, hx.creatable.2 m hg⟩
    self := by show { x with creatable := some m } = x; rw [← hg]
    wf_set := fun y hy hk => by
      have hy : ∃ hk, Creatable.WFWith v hk y := hy
      obtain ⟨k, hy⟩ := hy
      have hk := key y hk
      refine { hx with
        hot_key := ?_
        creatable := PresentIff.set hx.creatable hg ?_ }
      · by_cases h88 : 88 ≤ v.num
        · have ho := hx.hot_key.of_ge' h88
          refine Since.of_ge h88 ⟨?_, ?_⟩
          · intro c t ts hc ht
            cases hc
            rw [ht] at hk
            cases hm : m.train_locations with
            | nil => rw [hm] at hk; cases hk
            | cons t' ts' =>
              rw [hm] at hk
              have : t.hot_key_id = t'.hot_key_id := Option.some.inj hk
              rw [this]
              exact ho.1 m t' ts' hg hm
          · intro hc
            have hc := hc y rfl
            rw [hc] at hk
            refine ho.2 fun c hc' => ?_
            rw [hg] at hc'; cases hc'
            cases hm : m.train_locations with
            | nil => rfl
            | cons t' ts' => rw [hm] at hk; cases hk
        · exact Since.of_lt h88 (hx.hot_key.of_lt' h88)
      · by_cases h88 : 88 ≤ v.num
        · exact { hy with train_locations := Since.of_ge h88 (hy.train_locations.of_ge' h88) }
        · obtain ⟨t, ht, h1, h2, h3, h4⟩ := hy.train_locations.of_lt' h88
          obtain ⟨t', ht', -, -, -, h4'⟩ := (hx.creatable.2 m hg).train_locations.of_lt' h88
          rw [ht, ht'] at hk
          have : t.hot_key_id = t'.hot_key_id := Option.some.inj hk
          exact { hy with train_locations := Since.of_lt h88 ⟨t, ht, h1, h2, h3, this.trans h4'⟩ }
    get_set := fun _ _ => rfl
    splits := by
      have hc := hx.creatable.1.2 (by rw [hg]; rfl)
      show Splits _ (fun y => Unit.layout v { x with creatable := some y }) (Creatable.layout v)
      simp only [Unit.layout_eq]
      walk (Splits.partFrom hc) }

theorem Slot.good_Unit_building (v : Version) (x : Genie.Unit) (m : Genie.Building) (hx : Node.WF v (.record .Unit) x) (hs : (Slot.Unit_building).Stored v)
    (hg : (Slot.Unit_building).get x = some m) : (Slot.Unit_building).Good v x m := by
  have hg : x.building = some m := hg
  have hx : Genie.Unit.WF v x := hx
  exact {
    wf := hx.building.2 m hg
    self := by show { x with building := some m } = x; rw [← hg]
    wf_set := fun y hy _ => { hx with building := PresentIff.set hx.building hg hy }
    get_set := fun _ _ => rfl
    splits := by
      have hc := hx.building.1.2 (by rw [hg]; rfl)
      show Splits _ (fun y => Unit.layout v { x with building := some y }) (Building.layout v)
      simp only [Unit.layout_eq]
      walk (Splits.partOf hc) }

theorem Slot.good_UnitHeaders_task_list (v : Version) (i : Nat) (x : Genie.UnitHeaders) (m : Genie.Task) (hx : Node.WF v (.record .UnitHeaders) x) (hs : (Slot.UnitHeaders_task_list i).Stored v)
    (hg : (Slot.UnitHeaders_task_list i).get x = some m) : (Slot.UnitHeaders_task_list i).Good v x m := by
  obtain ⟨l, ho, hg⟩ := tasks_get (show x.task_list.bind (·[i]?) = some m from hg)
  have hx : Genie.UnitHeaders.WF v x := hx
  have hc : x.exists_ ≠ 0 := hx.task_list.1.2 (by rw [ho]; rfl)
  have hl := hx.task_list.2 l ho
  exact {
    wf := AllOf.elem hl.2 hg
    self := by show { x with task_list := x.task_list.map (·.set i m) } = x; rw [ho, Option.map_some, set_self hg, ← ho]
    wf_set := fun y hy _ => { hx with task_list := (by
      dsimp only [Slot.set]
      rw [ho]
      exact PresentIff.set hx.task_list ho (UpTo.set hl hy i)) }
    get_set := fun y _ => by
      show (x.task_list.map (·.set i y)).bind (·[i]?) = some y
      rw [ho]; exact get_set_elem hg y
    splits := by
      show Splits _ (fun y => UnitHeaders.layout v { x with task_list := x.task_list.map (·.set i y) }) (Task.layout v)
      simp only [UnitHeaders.layout, ho, Option.map_some, Layout.part, if_pos hc, countI16_set]
      exact Splits.right (Splits.right (Splits.elem hg)) }

theorem Slot.good_Civ_units (v : Version) (i : Nat) (x : Genie.Civ) (m : Genie.Unit) (hx : Node.WF v (.record .Civ) x) (hs : (Slot.Civ_units i).Stored v)
    (hg : (Slot.Civ_units i).get x = some m) : (Slot.Civ_units i).Good v x m := by
  have hg : slotAt x.units i = some m := hg
  have hx : Genie.Civ.WF v x := hx
  exact {
    wf := AllOf.elem hx.units.2 (slotAt_eq hg) m rfl
    self := by show { x with units := x.units.set i (some m) } = x; rw [set_self (slotAt_eq hg)]
    wf_set := fun y hy _ => { hx with units := UpTo.set hx.units (ifSome_some hy) i }
    get_set := fun y _ => get_set_slot hg y
    splits := by
      show Splits _ (fun y => Civ.layout v { x with units := x.units.set i (some y) }) (Unit.layout v)
      simp only [Civ.layout, countU8_set, countI16_set, countI32_set, countU32_set, List.length_set, pointers_set hg]
      walk (Splits.present hg) }

theorem Slot.good_TerrainRestriction_terrain_pass_graphics (v : Version) (n i : Nat) (x : Genie.TerrainRestriction) (m : Genie.TerrainPassGraphic) (hx : Node.WF v (.record (.TerrainRestriction n)) x) (hs : (Slot.TerrainRestriction_terrain_pass_graphics n i).Stored v)
    (hg : (Slot.TerrainRestriction_terrain_pass_graphics n i).get x = some m) : (Slot.TerrainRestriction_terrain_pass_graphics n i).Good v x m := by
  have hg : x.terrain_pass_graphics[i]? = some m := hg
  exact {
    wf := AllOf.elem (hx : Genie.TerrainRestriction.WF v n x).terrain_pass_graphics.2 hg
    self := by show { x with terrain_pass_graphics := x.terrain_pass_graphics.set i m } = x; rw [set_self hg]
    wf_set := fun y hy _ => { (hx : Genie.TerrainRestriction.WF v n x) with terrain_pass_graphics := Exactly.set hx.terrain_pass_graphics hy i }
    get_set := fun y _ => get_set_elem hg y
    splits := by
      show Splits _ (fun y => TerrainRestriction.layout v { x with terrain_pass_graphics := x.terrain_pass_graphics.set i y }) (TerrainPassGraphic.layout v)
      simp only [TerrainRestriction.layout, countU8_set, countI16_set, countI32_set, countU32_set, List.length_set]
      walk (Splits.elem hg) }

theorem Slot.good_DatFile_terrain_restrictions (v : Version) (n i : Nat) (x : Genie.DatFile) (m : Genie.TerrainRestriction) (hx : Node.WF v .file x) (hs : (Slot.DatFile_terrain_restrictions n i).Stored v)
    (hg : (Slot.DatFile_terrain_restrictions n i).get x = some m) : (Slot.DatFile_terrain_restrictions n i).Good v x m := by
  obtain ⟨hgi, hm⟩ := restrictions_get (show x.terrain_restrictions[i]?.filter (·.passable_buildable_dmg_multiplier.length = n) = some m from hg)
  have hx : Genie.DatFile.WFAt v x := hx
  obtain ⟨n', hn, hl⟩ := hx.terrain_restrictions
  have hn' : n' = n := (AllOf.elem hl.2 hgi).passable_buildable_dmg_multiplier.1.symm.trans hm
  subst hn'
  exact {
    wf := AllOf.elem hl.2 hgi
    self := by show { x with terrain_restrictions := x.terrain_restrictions.set i m } = x; rw [set_self hgi]
    wf_set := fun y hy _ => { hx with
      float_ptr_terrain_tables := ⟨by dsimp only [Slot.set]; rw [List.length_set]; exact hx.float_ptr_terrain_tables.1, hx.float_ptr_terrain_tables.2⟩
      terrain_pass_graphic_pointers := ⟨by dsimp only [Slot.set]; rw [List.length_set]; exact hx.terrain_pass_graphic_pointers.1, hx.terrain_pass_graphic_pointers.2⟩
      terrain_restrictions := ⟨n', hn, UpTo.set hl hy i⟩ }
    get_set := fun y (hy : (Genie.TerrainRestriction.passable_buildable_dmg_multiplier y).length = n') => by
      show (x.terrain_restrictions.set i y)[i]?.filter (·.passable_buildable_dmg_multiplier.length = n') = some y
      rw [get_set_elem hgi]; simp [Option.filter, hy]
    splits := by
      show Splits (fun (y : Genie.TerrainRestriction) => y.passable_buildable_dmg_multiplier.length = n') (fun y => DatFile.layoutAt v { x with terrain_restrictions := x.terrain_restrictions.set i y }) (TerrainRestriction.layout v)
      have ht : ∀ y : Genie.TerrainRestriction, y.passable_buildable_dmg_multiplier.length = n' → firstLen (x.terrain_restrictions.set i y) = firstLen x.terrain_restrictions := by
        intro y hy
        unfold firstLen
        cases hr : x.terrain_restrictions with
        | nil => rfl
        | cons r rs =>
          cases i with
          | zero =>
            rw [hr] at hgi
            cases hgi
            rw [List.set_cons_zero, if_neg (by simp), if_neg (by simp)]
            dsimp only
            rw [hm, hy]
          | succ i => rw [List.set_cons_succ, if_neg (by simp), if_neg (by simp)]
      simp only [DatFile.layout_eq, sameLen_set, countI16_set]
      exact .tail (.tail (.tail (.tail (.tailP ht (.tail (.tail (.head (.elem hgi)))))))) }

theorem Slot.good_DatFile_player_colours (v : Version) (i : Nat) (x : Genie.DatFile) (m : Genie.PlayerColour) (hx : Node.WF v .file x) (hs : (Slot.DatFile_player_colours i).Stored v)
    (hg : (Slot.DatFile_player_colours i).get x = some m) : (Slot.DatFile_player_colours i).Good v x m := by
  have hg : x.player_colours[i]? = some m := hg
  exact {
    wf := AllOf.elem (hx : Genie.DatFile.WFAt v x).player_colours.2 hg
    self := by show { x with player_colours := x.player_colours.set i m } = x; rw [set_self hg]
    wf_set := fun y hy _ => { (hx : Genie.DatFile.WFAt v x) with player_colours := UpTo.set hx.player_colours hy i }
    get_set := fun y _ => get_set_elem hg y
    splits := by
      show Splits _ (fun y => DatFile.layoutAt v { x with player_colours := x.player_colours.set i y }) (PlayerColour.layout v)
      simp only [DatFile.layout_eq, countU8_set, countI16_set, countI32_set, countU32_set, List.length_set]
      walk (Splits.elem hg) }

theorem Slot.good_DatFile_sounds (v : Version) (i : Nat) (x : Genie.DatFile) (m : Genie.Sound) (hx : Node.WF v .file x) (hs : (Slot.DatFile_sounds i).Stored v)
    (hg : (Slot.DatFile_sounds i).get x = some m) : (Slot.DatFile_sounds i).Good v x m := by
  have hg : x.sounds[i]? = some m := hg
  exact {
    wf := AllOf.elem (hx : Genie.DatFile.WFAt v x).sounds.2 hg
    self := by show { x with sounds := x.sounds.set i m } = x; rw [set_self hg]
    wf_set := fun y hy _ => { (hx : Genie.DatFile.WFAt v x) with sounds := UpTo.set hx.sounds hy i }
    get_set := fun y _ => get_set_elem hg y
    splits := by
      show Splits _ (fun y => DatFile.layoutAt v { x with sounds := x.sounds.set i y }) (Sound.layout v)
      simp only [DatFile.layout_eq, countU8_set, countI16_set, countI32_set, countU32_set, List.length_set]
      walk (Splits.elem hg) }

theorem Slot.good_DatFile_graphics (v : Version) (i : Nat) (x : Genie.DatFile) (m : Genie.Graphic) (hx : Node.WF v .file x) (hs : (Slot.DatFile_graphics i).Stored v)
    (hg : (Slot.DatFile_graphics i).get x = some m) : (Slot.DatFile_graphics i).Good v x m := by
  have hg : slotAt x.graphics i = some m := hg
  have hx : Genie.DatFile.WFAt v x := hx
  exact {
    wf := AllOf.elem hx.graphics.2 (slotAt_eq hg) m rfl
    self := by show { x with graphics := x.graphics.set i (some m) } = x; rw [set_self (slotAt_eq hg)]
    wf_set := fun y hy _ => { hx with graphics := UpTo.set hx.graphics (ifSome_some hy) i }
    get_set := fun y _ => get_set_slot hg y
    splits := by
      show Splits _ (fun y => DatFile.layoutAt v { x with graphics := x.graphics.set i (some y) }) (Graphic.layout v)
      simp only [DatFile.layout_eq, countU8_set, countI16_set, countI32_set, countU32_set, List.length_set, pointers_set hg]
      walk (Splits.present hg) }

theorem Slot.good_DatFile_terrain_block (v : Version) (x : Genie.DatFile) (m : Genie.TerrainBlock) (hx : Node.WF v .file x) (hs : (Slot.DatFile_terrain_block).Stored v)
    (hg : (Slot.DatFile_terrain_block).get x = some m) : (Slot.DatFile_terrain_block).Good v x m := by
  cases hg
  exact {
    wf := hx.terrain_block
    self := rfl
    wf_set := fun y hy _ => { (hx : Genie.DatFile.WFAt v x) with terrain_block := hy }
    get_set := fun _ _ => rfl
    splits := by
      show Splits _ (fun y => DatFile.layoutAt v { x with terrain_block := y }) (TerrainBlock.layout v)
      simp only [DatFile.layout_eq]
      walk (Splits.here) }

theorem Slot.good_DatFile_random_maps (v : Version) (x : Genie.DatFile) (m : Genie.RandomMaps) (hx : Node.WF v .file x) (hs : (Slot.DatFile_random_maps).Stored v)
    (hg : (Slot.DatFile_random_maps).get x = some m) : (Slot.DatFile_random_maps).Good v x m := by
  cases hg
  exact {
    wf := hx.random_maps
    self := rfl
    wf_set := fun y hy _ => { (hx : Genie.DatFile.WFAt v x) with random_maps := hy }
    get_set := fun _ _ => rfl
    splits := by
      show Splits _ (fun y => DatFile.layoutAt v { x with random_maps := y }) (RandomMaps.layout v)
      simp only [DatFile.layout_eq]
      walk (Splits.here) }

theorem Slot.good_DatFile_effects (v : Version) (i : Nat) (x : Genie.DatFile) (m : Genie.Effect) (hx : Node.WF v .file x) (hs : (Slot.DatFile_effects i).Stored v)
    (hg : (Slot.DatFile_effects i).get x = some m) : (Slot.DatFile_effects i).Good v x m := by
  have hg : x.effects[i]? = some m := hg
  exact {
    wf := AllOf.elem (hx : Genie.DatFile.WFAt v x).effects.2 hg
    self := by show { x with effects := x.effects.set i m } = x; rw [set_self hg]
    wf_set := fun y hy _ => { (hx : Genie.DatFile.WFAt v x) with effects := UpTo.set hx.effects hy i }
    get_set := fun y _ => get_set_elem hg y
    splits := by
      show Splits _ (fun y => DatFile.layoutAt v { x with effects := x.effects.set i y }) (Effect.layout v)
      simp only [DatFile.layout_eq, countU8_set, countI16_set, countI32_set, countU32_set, List.length_set]
      walk (Splits.elem hg) }

theorem Slot.good_DatFile_unit_headers (v : Version) (i : Nat) (x : Genie.DatFile) (m : Genie.UnitHeaders) (hx : Node.WF v .file x) (hs : (Slot.DatFile_unit_headers i).Stored v)
    (hg : (Slot.DatFile_unit_headers i).get x = some m) : (Slot.DatFile_unit_headers i).Good v x m := by
  have hg : x.unit_headers[i]? = some m := hg
  exact {
    wf := AllOf.elem (hx : Genie.DatFile.WFAt v x).unit_headers.2 hg
    self := by show { x with unit_headers := x.unit_headers.set i m } = x; rw [set_self hg]
    wf_set := fun y hy _ => { (hx : Genie.DatFile.WFAt v x) with unit_headers := UpTo.set hx.unit_headers hy i }
    get_set := fun y _ => get_set_elem hg y
    splits := by
      show Splits _ (fun y => DatFile.layoutAt v { x with unit_headers := x.unit_headers.set i y }) (UnitHeaders.layout v)
      simp only [DatFile.layout_eq, countU8_set, countI16_set, countI32_set, countU32_set, List.length_set]
      walk (Splits.elem hg) }

theorem Slot.good_DatFile_civs (v : Version) (i : Nat) (x : Genie.DatFile) (m : Genie.Civ) (hx : Node.WF v .file x) (hs : (Slot.DatFile_civs i).Stored v)
    (hg : (Slot.DatFile_civs i).get x = some m) : (Slot.DatFile_civs i).Good v x m := by
  have hg : x.civs[i]? = some m := hg
  exact {
    wf := AllOf.elem (hx : Genie.DatFile.WFAt v x).civs.2 hg
    self := by show { x with civs := x.civs.set i m } = x; rw [set_self hg]
    wf_set := fun y hy _ => { (hx : Genie.DatFile.WFAt v x) with civs := UpTo.set hx.civs hy i }
    get_set := fun y _ => get_set_elem hg y
    splits := by
      show Splits _ (fun y => DatFile.layoutAt v { x with civs := x.civs.set i y }) (Civ.layout v)
      simp only [DatFile.layout_eq, countU8_set, countI16_set, countI32_set, countU32_set, List.length_set]
      walk (Splits.elem hg) }

theorem Slot.good_DatFile_techs (v : Version) (i : Nat) (x : Genie.DatFile) (m : Genie.Tech) (hx : Node.WF v .file x) (hs : (Slot.DatFile_techs i).Stored v)
    (hg : (Slot.DatFile_techs i).get x = some m) : (Slot.DatFile_techs i).Good v x m := by
  have hg : x.techs[i]? = some m := hg
  exact {
    wf := AllOf.elem (hx : Genie.DatFile.WFAt v x).techs.2 hg
    self := by show { x with techs := x.techs.set i m } = x; rw [set_self hg]
    wf_set := fun y hy _ => { (hx : Genie.DatFile.WFAt v x) with techs := UpTo.set hx.techs hy i }
    get_set := fun y _ => get_set_elem hg y
    splits := by
      show Splits _ (fun y => DatFile.layoutAt v { x with techs := x.techs.set i y }) (Tech.layout v)
      simp only [DatFile.layout_eq, countU8_set, countI16_set, countI32_set, countU32_set, List.length_set]
      walk (Splits.elem hg) }

theorem Slot.good_DatFile_tech_tree (v : Version) (x : Genie.DatFile) (m : Genie.TechTree) (hx : Node.WF v .file x) (hs : (Slot.DatFile_tech_tree).Stored v)
    (hg : (Slot.DatFile_tech_tree).get x = some m) : (Slot.DatFile_tech_tree).Good v x m := by
  cases hg
  exact {
    wf := hx.tech_tree
    self := rfl
    wf_set := fun y hy _ => { (hx : Genie.DatFile.WFAt v x) with tech_tree := hy }
    get_set := fun _ _ => rfl
    splits := by
      show Splits _ (fun y => DatFile.layoutAt v { x with tech_tree := y }) (TechTree.layout v)
      simp only [DatFile.layout_eq]
      walk (Splits.here) }

theorem Slot.good {a b : Node} (s : Slot a b) (v : Version) (x : a.Obj) (m : b.Obj) (hx : a.WF v x) (hs : s.Stored v)
    (hg : s.get x = some m) : s.Good v x m := by
  cases s with
  | Effect_effect_commands i => exact Slot.good_Effect_effect_commands v i x m hx hs hg
  | Sound_items i => exact Slot.good_Sound_items v i x m hx hs hg
  | Graphic_deltas i => exact Slot.good_Graphic_deltas v i x m hx hs hg
  | Graphic_angle_sounds i => exact Slot.good_Graphic_angle_sounds v i x m hx hs hg
  | Terrain_frame_data i => exact Slot.good_Terrain_frame_data v i x m hx hs hg
  | TerrainBlock_tile_sizes i => exact Slot.good_TerrainBlock_tile_sizes v i x m hx hs hg
  | TerrainBlock_terrains i => exact Slot.good_TerrainBlock_terrains v i x m hx hs hg
  | MapInfo_map_lands i => exact Slot.good_MapInfo_map_lands v i x m hx hs hg
  | MapInfo_map_terrains i => exact Slot.good_MapInfo_map_terrains v i x m hx hs hg
  | MapInfo_map_units i => exact Slot.good_MapInfo_map_units v i x m hx hs hg
  | MapInfo_map_elevations i => exact Slot.good_MapInfo_map_elevations v i x m hx hs hg
  | RandomMaps_map_info_1 i => exact Slot.good_RandomMaps_map_info_1 v i x m hx hs hg
  | RandomMaps_map_info_2 i => exact Slot.good_RandomMaps_map_info_2 v i x m hx hs hg
  | Tech_resource_costs i => exact Slot.good_Tech_resource_costs v i x m hx hs hg
  | Tech_research_locations i => exact Slot.good_Tech_research_locations v i x m hx hs hg
  | TechTreeAge_common => exact Slot.good_TechTreeAge_common v x m hx hs hg
  | BuildingConnection_common => exact Slot.good_BuildingConnection_common v x m hx hs hg
  | UnitConnection_common => exact Slot.good_UnitConnection_common v x m hx hs hg
  | ResearchConnection_common => exact Slot.good_ResearchConnection_common v x m hx hs hg
  | TechTree_tech_tree_ages i => exact Slot.good_TechTree_tech_tree_ages v i x m hx hs hg
  | TechTree_building_connections i => exact Slot.good_TechTree_building_connections v i x m hx hs hg
  | TechTree_unit_connections i => exact Slot.good_TechTree_unit_connections v i x m hx hs hg
  | TechTree_research_connections i => exact Slot.good_TechTree_research_connections v i x m hx hs hg
  | Bird_tasks i => exact Slot.good_Bird_tasks v i x m hx hs hg
  | Type50_attacks i => exact Slot.good_Type50_attacks v i x m hx hs hg
  | Type50_armours i => exact Slot.good_Type50_armours v i x m hx hs hg
  | Creatable_resource_costs i => exact Slot.good_Creatable_resource_costs v i x m hx hs hg
  | Creatable_train_locations i => exact Slot.good_Creatable_train_locations v i x m hx hs hg
  | Building_annexes i => exact Slot.good_Building_annexes v i x m hx hs hg
  | Unit_resource_storages i => exact Slot.good_Unit_resource_storages v i x m hx hs hg
  | Unit_damage_graphics i => exact Slot.good_Unit_damage_graphics v i x m hx hs hg
  | Unit_dead_fish => exact Slot.good_Unit_dead_fish v x m hx hs hg
  | Unit_bird => exact Slot.good_Unit_bird v x m hx hs hg
  | Unit_type_50 => exact Slot.good_Unit_type_50 v x m hx hs hg
  | Unit_projectile => exact Slot.good_Unit_projectile v x m hx hs hg
  | Unit_creatable => exact Slot.good_Unit_creatable v x m hx hs hg
  | Unit_building => exact Slot.good_Unit_building v x m hx hs hg
  | UnitHeaders_task_list i => exact Slot.good_UnitHeaders_task_list v i x m hx hs hg
  | Civ_units i => exact Slot.good_Civ_units v i x m hx hs hg
  | TerrainRestriction_terrain_pass_graphics n i => exact Slot.good_TerrainRestriction_terrain_pass_graphics v n i x m hx hs hg
  | DatFile_terrain_restrictions n i => exact Slot.good_DatFile_terrain_restrictions v n i x m hx hs hg
  | DatFile_player_colours i => exact Slot.good_DatFile_player_colours v i x m hx hs hg
  | DatFile_sounds i => exact Slot.good_DatFile_sounds v i x m hx hs hg
  | DatFile_graphics i => exact Slot.good_DatFile_graphics v i x m hx hs hg
  | DatFile_terrain_block => exact Slot.good_DatFile_terrain_block v x m hx hs hg
  | DatFile_random_maps => exact Slot.good_DatFile_random_maps v x m hx hs hg
  | DatFile_effects i => exact Slot.good_DatFile_effects v i x m hx hs hg
  | DatFile_unit_headers i => exact Slot.good_DatFile_unit_headers v i x m hx hs hg
  | DatFile_civs i => exact Slot.good_DatFile_civs v i x m hx hs hg
  | DatFile_techs i => exact Slot.good_DatFile_techs v i x m hx hs hg
  | DatFile_tech_tree => exact Slot.good_DatFile_tech_tree v x m hx hs hg

end Genie
