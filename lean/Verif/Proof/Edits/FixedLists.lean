import Verif.Proof.Edits.FieldDefs
/-! # Lists of fixed length (generated by `tools/gen_edit_fields.py`) -/

namespace Genie
open Layout
set_option linter.unusedVariables false
set_option linter.unusedSimpArgs false

theorem Graphic.fixedList_coordinates (v : Version) : ListField.FixedOK (.record .Graphic) v 4 ⟨"coordinates", Int, fun (x : Genie.Graphic) => x.coordinates, fun x l => { x with coordinates := l }, i16, IsI16⟩ where
  self _ := rfl
  get_set _ _ := rfl
  clean := fun _ h => clean_i16.2 h
  old x hx := by
    have hx : Graphic.WF v x := hx
    exact hx.coordinates
  wf x hx l hl := by
    have hx : Graphic.WF v x := hx
    constructor
    · intro (k : Graphic.WF v { x with coordinates := l })
      skip
      exact (k.coordinates).1
    · intro h
      exact { hx with coordinates := ⟨h, hl⟩ }
  splits x hx := by
    have hx : Graphic.WF v x := hx
    show Splits _ (fun y => Graphic.layout v { x with coordinates := y }) _
    simp only [Graphic.layout]
    walk Splits.here

theorem Graphic.fixedLists (v : Version) : ∀ f ∈ Node.fixedLists v (.record .Graphic), ListField.FixedOK (.record .Graphic) v f.1 f.2 :=
  forall_cons (Graphic.fixedList_coordinates v) (forall_nil)

theorem Terrain.fixedList_colors (v : Version) : ListField.FixedOK (.record .Terrain) v 3 ⟨"colors", Int, fun (x : Genie.Terrain) => x.colors, fun x l => { x with colors := l }, u8, IsU8⟩ where
  self _ := rfl
  get_set _ _ := rfl
  clean := fun _ h => clean_u8.2 h
  old x hx := by
    have hx : Terrain.WF v x := hx
    exact hx.colors
  wf x hx l hl := by
    have hx : Terrain.WF v x := hx
    constructor
    · intro (k : Terrain.WF v { x with colors := l })
      skip
      exact (k.colors).1
    · intro h
      exact { hx with colors := ⟨h, hl⟩ }
  splits x hx := by
    have hx : Terrain.WF v x := hx
    show Splits _ (fun y => Terrain.layout v { x with colors := y }) _
    simp only [Terrain.layout]
    walk Splits.here

theorem Terrain.fixedList_cliff_colors (v : Version) : ListField.FixedOK (.record .Terrain) v 2 ⟨"cliff_colors", Int, fun (x : Genie.Terrain) => x.cliff_colors, fun x l => { x with cliff_colors := l }, u8, IsU8⟩ where
  self _ := rfl
  get_set _ _ := rfl
  clean := fun _ h => clean_u8.2 h
  old x hx := by
    have hx : Terrain.WF v x := hx
    exact hx.cliff_colors
  wf x hx l hl := by
    have hx : Terrain.WF v x := hx
    constructor
    · intro (k : Terrain.WF v { x with cliff_colors := l })
      skip
      exact (k.cliff_colors).1
    · intro h
      exact { hx with cliff_colors := ⟨h, hl⟩ }
  splits x hx := by
    have hx : Terrain.WF v x := hx
    show Splits _ (fun y => Terrain.layout v { x with cliff_colors := y }) _
    simp only [Terrain.layout]
    walk Splits.here

theorem Terrain.fixedList_frame_data (v : Version) : ListField.FixedOK (.record .Terrain) v 19 ⟨"frame_data", Genie.FrameData, fun (x : Genie.Terrain) => x.frame_data, fun x l => { x with frame_data := l }, FrameData.layout v, FrameData.WF v⟩ where
  self _ := rfl
  get_set _ _ := rfl
  clean := fun e h => clean_class .FrameData e h
  old x hx := by
    have hx : Terrain.WF v x := hx
    exact hx.frame_data
  wf x hx l hl := by
    have hx : Terrain.WF v x := hx
    constructor
    · intro (k : Terrain.WF v { x with frame_data := l })
      skip
      exact (k.frame_data).1
    · intro h
      exact { hx with frame_data := ⟨h, hl⟩ }
  splits x hx := by
    have hx : Terrain.WF v x := hx
    show Splits _ (fun y => Terrain.layout v { x with frame_data := y }) _
    simp only [Terrain.layout]
    walk Splits.here

theorem Terrain.fixedList_terrain_dimensions (v : Version) : ListField.FixedOK (.record .Terrain) v 2 ⟨"terrain_dimensions", Int, fun (x : Genie.Terrain) => x.terrain_dimensions, fun x l => { x with terrain_dimensions := l }, i16, IsI16⟩ where
  self _ := rfl
  get_set _ _ := rfl
  clean := fun _ h => clean_i16.2 h
  old x hx := by
    have hx : Terrain.WF v x := hx
    exact hx.terrain_dimensions
  wf x hx l hl := by
    have hx : Terrain.WF v x := hx
    constructor
    · intro (k : Terrain.WF v { x with terrain_dimensions := l })
      skip
      exact (k.terrain_dimensions).1
    · intro h
      exact { hx with terrain_dimensions := ⟨h, hl⟩ }
  splits x hx := by
    have hx : Terrain.WF v x := hx
    show Splits _ (fun y => Terrain.layout v { x with terrain_dimensions := y }) _
    simp only [Terrain.layout]
    walk Splits.here

theorem Terrain.fixedList_terrain_unit_masked_density (v : Version) : ListField.FixedOK (.record .Terrain) v 30 ⟨"terrain_unit_masked_density", Int, fun (x : Genie.Terrain) => x.terrain_unit_masked_density, fun x l => { x with terrain_unit_masked_density := l }, i16, IsI16⟩ where
  self _ := rfl
  get_set _ _ := rfl
  clean := fun _ h => clean_i16.2 h
  old x hx := by
    have hx : Terrain.WF v x := hx
    exact hx.terrain_unit_masked_density
  wf x hx l hl := by
    have hx : Terrain.WF v x := hx
    constructor
    · intro (k : Terrain.WF v { x with terrain_unit_masked_density := l })
      skip
      exact (k.terrain_unit_masked_density).1
    · intro h
      exact { hx with terrain_unit_masked_density := ⟨h, hl⟩ }
  splits x hx := by
    have hx : Terrain.WF v x := hx
    show Splits _ (fun y => Terrain.layout v { x with terrain_unit_masked_density := y }) _
    simp only [Terrain.layout]
    walk Splits.here

theorem Terrain.fixedList_terrain_unit_id (v : Version) : ListField.FixedOK (.record .Terrain) v 30 ⟨"terrain_unit_id", Int, fun (x : Genie.Terrain) => x.terrain_unit_id, fun x l => { x with terrain_unit_id := l }, i16, IsI16⟩ where
  self _ := rfl
  get_set _ _ := rfl
  clean := fun _ h => clean_i16.2 h
  old x hx := by
    have hx : Terrain.WF v x := hx
    exact hx.terrain_unit_id
  wf x hx l hl := by
    have hx : Terrain.WF v x := hx
    constructor
    · intro (k : Terrain.WF v { x with terrain_unit_id := l })
      skip
      exact (k.terrain_unit_id).1
    · intro h
      exact { hx with terrain_unit_id := ⟨h, hl⟩ }
  splits x hx := by
    have hx : Terrain.WF v x := hx
    show Splits _ (fun y => Terrain.layout v { x with terrain_unit_id := y }) _
    simp only [Terrain.layout]
    walk Splits.here

theorem Terrain.fixedList_terrain_unit_density (v : Version) : ListField.FixedOK (.record .Terrain) v 30 ⟨"terrain_unit_density", Int, fun (x : Genie.Terrain) => x.terrain_unit_density, fun x l => { x with terrain_unit_density := l }, i16, IsI16⟩ where
  self _ := rfl
  get_set _ _ := rfl
  clean := fun _ h => clean_i16.2 h
  old x hx := by
    have hx : Terrain.WF v x := hx
    exact hx.terrain_unit_density
  wf x hx l hl := by
    have hx : Terrain.WF v x := hx
    constructor
    · intro (k : Terrain.WF v { x with terrain_unit_density := l })
      skip
      exact (k.terrain_unit_density).1
    · intro h
      exact { hx with terrain_unit_density := ⟨h, hl⟩ }
  splits x hx := by
    have hx : Terrain.WF v x := hx
    show Splits _ (fun y => Terrain.layout v { x with terrain_unit_density := y }) _
    simp only [Terrain.layout]
    walk Splits.here

theorem Terrain.fixedList_terrain_unit_centering (v : Version) : ListField.FixedOK (.record .Terrain) v 30 ⟨"terrain_unit_centering", Int, fun (x : Genie.Terrain) => x.terrain_unit_centering, fun x l => { x with terrain_unit_centering := l }, u8, IsU8⟩ where
  self _ := rfl
  get_set _ _ := rfl
  clean := fun _ h => clean_u8.2 h
  old x hx := by
    have hx : Terrain.WF v x := hx
    exact hx.terrain_unit_centering
  wf x hx l hl := by
    have hx : Terrain.WF v x := hx
    constructor
    · intro (k : Terrain.WF v { x with terrain_unit_centering := l })
      skip
      exact (k.terrain_unit_centering).1
    · intro h
      exact { hx with terrain_unit_centering := ⟨h, hl⟩ }
  splits x hx := by
    have hx : Terrain.WF v x := hx
    show Splits _ (fun y => Terrain.layout v { x with terrain_unit_centering := y }) _
    simp only [Terrain.layout]
    walk Splits.here

theorem Terrain.fixedLists (v : Version) : ∀ f ∈ Node.fixedLists v (.record .Terrain), ListField.FixedOK (.record .Terrain) v f.1 f.2 :=
  forall_cons (Terrain.fixedList_colors v) (forall_cons (Terrain.fixedList_cliff_colors v) (forall_cons (Terrain.fixedList_frame_data v) (forall_cons (Terrain.fixedList_terrain_dimensions v) (forall_cons (Terrain.fixedList_terrain_unit_masked_density v) (forall_cons (Terrain.fixedList_terrain_unit_id v) (forall_cons (Terrain.fixedList_terrain_unit_density v) (forall_cons (Terrain.fixedList_terrain_unit_centering v) (forall_nil))))))))

theorem TerrainBlock.fixedList_tile_sizes (v : Version) : ListField.FixedOK (.record .TerrainBlock) v 19 ⟨"tile_sizes", Genie.TileSize, fun (x : Genie.TerrainBlock) => x.tile_sizes, fun x l => { x with tile_sizes := l }, TileSize.layout v, TileSize.WF v⟩ where
  self _ := rfl
  get_set _ _ := rfl
  clean := fun e h => clean_class .TileSize e h
  old x hx := by
    have hx : TerrainBlock.WF v x := hx
    exact hx.tile_sizes
  wf x hx l hl := by
    have hx : TerrainBlock.WF v x := hx
    constructor
    · intro (k : TerrainBlock.WF v { x with tile_sizes := l })
      skip
      exact (k.tile_sizes).1
    · intro h
      exact { hx with tile_sizes := ⟨h, hl⟩ }
  splits x hx := by
    have hx : TerrainBlock.WF v x := hx
    show Splits _ (fun y => TerrainBlock.layout v { x with tile_sizes := y }) _
    simp only [TerrainBlock.layout]
    walk Splits.here

theorem TerrainBlock.fixedList_terrains (v : Version) : ListField.FixedOK (.record .TerrainBlock) v 200 ⟨"terrains", Genie.Terrain, fun (x : Genie.TerrainBlock) => x.terrains, fun x l => { x with terrains := l }, Terrain.layout v, Terrain.WF v⟩ where
  self _ := rfl
  get_set _ _ := rfl
  clean := fun e h => clean_class .Terrain e h
  old x hx := by
    have hx : TerrainBlock.WF v x := hx
    exact hx.terrains
  wf x hx l hl := by
    have hx : TerrainBlock.WF v x := hx
    constructor
    · intro (k : TerrainBlock.WF v { x with terrains := l })
      skip
      exact (k.terrains).1
    · intro h
      exact { hx with terrains := ⟨h, hl⟩ }
  splits x hx := by
    have hx : TerrainBlock.WF v x := hx
    show Splits _ (fun y => TerrainBlock.layout v { x with terrains := y }) _
    simp only [TerrainBlock.layout]
    walk Splits.here

theorem TerrainBlock.fixedLists (v : Version) : ∀ f ∈ Node.fixedLists v (.record .TerrainBlock), ListField.FixedOK (.record .TerrainBlock) v f.1 f.2 :=
  forall_cons (TerrainBlock.fixedList_tile_sizes v) (forall_cons (TerrainBlock.fixedList_terrains v) (forall_nil))

theorem Tech.fixedList_required_techs (v : Version) : ListField.FixedOK (.record .Tech) v 6 ⟨"required_techs", Int, fun (x : Genie.Tech) => x.required_techs, fun x l => { x with required_techs := l }, i16, IsI16⟩ where
  self _ := rfl
  get_set _ _ := rfl
  clean := fun _ h => clean_i16.2 h
  old x hx := by
    have hx : Tech.WF v x := hx
    exact hx.required_techs
  wf x hx l hl := by
    have hx : Tech.WF v x := hx
    constructor
    · intro (k : Tech.WF v { x with required_techs := l })
      skip
      exact (k.required_techs).1
    · intro h
      exact { hx with required_techs := ⟨h, hl⟩ }
  splits x hx := by
    have hx : Tech.WF v x := hx
    show Splits _ (fun y => Tech.layout v { x with required_techs := y }) _
    simp only [Tech.layout, Tech.location84]
    split
    · walk Splits.here
    · walk Splits.here

theorem Tech.fixedList_resource_costs (v : Version) : ListField.FixedOK (.record .Tech) v 3 ⟨"resource_costs", Genie.ResearchResourceCost, fun (x : Genie.Tech) => x.resource_costs, fun x l => { x with resource_costs := l }, ResearchResourceCost.layout v, ResearchResourceCost.WF v⟩ where
  self _ := rfl
  get_set _ _ := rfl
  clean := fun e h => clean_class .ResearchResourceCost e h
  old x hx := by
    have hx : Tech.WF v x := hx
    exact hx.resource_costs
  wf x hx l hl := by
    have hx : Tech.WF v x := hx
    constructor
    · intro (k : Tech.WF v { x with resource_costs := l })
      skip
      exact (k.resource_costs).1
    · intro h
      exact { hx with resource_costs := ⟨h, hl⟩ }
  splits x hx := by
    have hx : Tech.WF v x := hx
    show Splits _ (fun y => Tech.layout v { x with resource_costs := y }) _
    simp only [Tech.layout, Tech.location84]
    split
    · walk Splits.here
    · walk Splits.here

theorem Tech.fixedLists (v : Version) : ∀ f ∈ Node.fixedLists v (.record .Tech), ListField.FixedOK (.record .Tech) v f.1 f.2 :=
  forall_cons (Tech.fixedList_required_techs v) (forall_cons (Tech.fixedList_resource_costs v) (forall_nil))

theorem Common.fixedList_unit_research (v : Version) : ListField.FixedOK (.record .Common) v 10 ⟨"unit_research", Int, fun (x : Genie.Common) => x.unit_research, fun x l => { x with unit_research := l }, i32, IsI32⟩ where
  self _ := rfl
  get_set _ _ := rfl
  clean := fun _ h => clean_i32.2 h
  old x hx := by
    have hx : Common.WF v x := hx
    exact hx.unit_research
  wf x hx l hl := by
    have hx : Common.WF v x := hx
    constructor
    · intro (k : Common.WF v { x with unit_research := l })
      skip
      exact (k.unit_research).1
    · intro h
      exact { hx with unit_research := ⟨h, hl⟩ }
  splits x hx := by
    have hx : Common.WF v x := hx
    show Splits _ (fun y => Common.layout v { x with unit_research := y }) _
    simp only [Common.layout]
    walk Splits.here

theorem Common.fixedList_mode (v : Version) : ListField.FixedOK (.record .Common) v 10 ⟨"mode", Int, fun (x : Genie.Common) => x.mode, fun x l => { x with mode := l }, i32, IsI32⟩ where
  self _ := rfl
  get_set _ _ := rfl
  clean := fun _ h => clean_i32.2 h
  old x hx := by
    have hx : Common.WF v x := hx
    exact hx.mode
  wf x hx l hl := by
    have hx : Common.WF v x := hx
    constructor
    · intro (k : Common.WF v { x with mode := l })
      skip
      exact (k.mode).1
    · intro h
      exact { hx with mode := ⟨h, hl⟩ }
  splits x hx := by
    have hx : Common.WF v x := hx
    show Splits _ (fun y => Common.layout v { x with mode := y }) _
    simp only [Common.layout]
    walk Splits.here

theorem Common.fixedLists (v : Version) : ∀ f ∈ Node.fixedLists v (.record .Common), ListField.FixedOK (.record .Common) v f.1 f.2 :=
  forall_cons (Common.fixedList_unit_research v) (forall_cons (Common.fixedList_mode v) (forall_nil))

theorem TechTreeAge.fixedList_buildings_per_zone (v : Version) : ListField.FixedOK (.record .TechTreeAge) v 10 ⟨"buildings_per_zone", Int, fun (x : Genie.TechTreeAge) => x.buildings_per_zone, fun x l => { x with buildings_per_zone := l }, u8, IsU8⟩ where
  self _ := rfl
  get_set _ _ := rfl
  clean := fun _ h => clean_u8.2 h
  old x hx := by
    have hx : TechTreeAge.WF v x := hx
    exact hx.buildings_per_zone
  wf x hx l hl := by
    have hx : TechTreeAge.WF v x := hx
    constructor
    · intro (k : TechTreeAge.WF v { x with buildings_per_zone := l })
      skip
      exact (k.buildings_per_zone).1
    · intro h
      exact { hx with buildings_per_zone := ⟨h, hl⟩ }
  splits x hx := by
    have hx : TechTreeAge.WF v x := hx
    show Splits _ (fun y => TechTreeAge.layout v { x with buildings_per_zone := y }) _
    simp only [TechTreeAge.layout]
    walk Splits.here

theorem TechTreeAge.fixedList_group_length_per_zone (v : Version) : ListField.FixedOK (.record .TechTreeAge) v 10 ⟨"group_length_per_zone", Int, fun (x : Genie.TechTreeAge) => x.group_length_per_zone, fun x l => { x with group_length_per_zone := l }, u8, IsU8⟩ where
  self _ := rfl
  get_set _ _ := rfl
  clean := fun _ h => clean_u8.2 h
  old x hx := by
    have hx : TechTreeAge.WF v x := hx
    exact hx.group_length_per_zone
  wf x hx l hl := by
    have hx : TechTreeAge.WF v x := hx
    constructor
    · intro (k : TechTreeAge.WF v { x with group_length_per_zone := l })
      skip
      exact (k.group_length_per_zone).1
    · intro h
      exact { hx with group_length_per_zone := ⟨h, hl⟩ }
  splits x hx := by
    have hx : TechTreeAge.WF v x := hx
    show Splits _ (fun y => TechTreeAge.layout v { x with group_length_per_zone := y }) _
    simp only [TechTreeAge.layout]
    walk Splits.here

theorem TechTreeAge.fixedLists (v : Version) : ∀ f ∈ Node.fixedLists v (.record .TechTreeAge), ListField.FixedOK (.record .TechTreeAge) v f.1 f.2 :=
  forall_cons (TechTreeAge.fixedList_buildings_per_zone v) (forall_cons (TechTreeAge.fixedList_group_length_per_zone v) (forall_nil))

theorem BuildingConnection.fixedList_units_techs_total (v : Version) : ListField.FixedOK (.record .BuildingConnection) v 5 ⟨"units_techs_total", Int, fun (x : Genie.BuildingConnection) => x.units_techs_total, fun x l => { x with units_techs_total := l }, u8, IsU8⟩ where
  self _ := rfl
  get_set _ _ := rfl
  clean := fun _ h => clean_u8.2 h
  old x hx := by
    have hx : BuildingConnection.WF v x := hx
    exact hx.units_techs_total
  wf x hx l hl := by
    have hx : BuildingConnection.WF v x := hx
    constructor
    · intro (k : BuildingConnection.WF v { x with units_techs_total := l })
      skip
      exact (k.units_techs_total).1
    · intro h
      exact { hx with units_techs_total := ⟨h, hl⟩ }
  splits x hx := by
    have hx : BuildingConnection.WF v x := hx
    show Splits _ (fun y => BuildingConnection.layout v { x with units_techs_total := y }) _
    simp only [BuildingConnection.layout]
    walk Splits.here

theorem BuildingConnection.fixedList_units_techs_first (v : Version) : ListField.FixedOK (.record .BuildingConnection) v 5 ⟨"units_techs_first", Int, fun (x : Genie.BuildingConnection) => x.units_techs_first, fun x l => { x with units_techs_first := l }, u8, IsU8⟩ where
  self _ := rfl
  get_set _ _ := rfl
  clean := fun _ h => clean_u8.2 h
  old x hx := by
    have hx : BuildingConnection.WF v x := hx
    exact hx.units_techs_first
  wf x hx l hl := by
    have hx : BuildingConnection.WF v x := hx
    constructor
    · intro (k : BuildingConnection.WF v { x with units_techs_first := l })
      skip
      exact (k.units_techs_first).1
    · intro h
      exact { hx with units_techs_first := ⟨h, hl⟩ }
  splits x hx := by
    have hx : BuildingConnection.WF v x := hx
    show Splits _ (fun y => BuildingConnection.layout v { x with units_techs_first := y }) _
    simp only [BuildingConnection.layout]
    walk Splits.here

theorem BuildingConnection.fixedLists (v : Version) : ∀ f ∈ Node.fixedLists v (.record .BuildingConnection), ListField.FixedOK (.record .BuildingConnection) v f.1 f.2 :=
  forall_cons (BuildingConnection.fixedList_units_techs_total v) (forall_cons (BuildingConnection.fixedList_units_techs_first v) (forall_nil))

theorem Bird.fixedList_drop_sites (v : Version) (hv : v.num < 78) : ListField.FixedOK (.record .Bird) v 3 ⟨"drop_sites", Int, fun (x : Genie.Bird) => x.drop_sites, fun x l => { x with drop_sites := l }, i16, IsI16⟩ where
  self _ := rfl
  get_set _ _ := rfl
  clean := fun _ h => clean_i16.2 h
  old x hx := by
    have hx : Bird.WF v x := hx
    exact hx.drop_sites.of_lt' (by omega)
  wf x hx l hl := by
    have hx : Bird.WF v x := hx
    constructor
    · intro (k : Bird.WF v { x with drop_sites := l })
      skip
      exact (k.drop_sites.of_lt' (by omega)).1
    · intro h
      exact { hx with drop_sites := Since.of_lt (by omega) ⟨h, hl⟩ }
  splits x hx := by
    have hx : Bird.WF v x := hx
    show Splits _ (fun y => Bird.layout v { x with drop_sites := y }) _
    simp only [Bird.layout, since, if_neg (show ¬ 78 ≤ v.num by omega)]
    walk Splits.here

theorem Bird.fixedLists (v : Version) : ∀ f ∈ Node.fixedLists v (.record .Bird), ListField.FixedOK (.record .Bird) v f.1 f.2 :=
  forall_append (forall_nil) (forall_ite fun hv => forall_cons (Bird.fixedList_drop_sites v hv) (forall_nil))

theorem Type50.fixedList_graphic_displacement (v : Version) : ListField.FixedOK (.record .Type50) v 3 ⟨"graphic_displacement", PyFloat, fun (x : Genie.Type50) => x.graphic_displacement, fun x l => { x with graphic_displacement := l }, f32, IsF32⟩ where
  self _ := rfl
  get_set _ _ := rfl
  clean := fun _ _ => clean_f32
  old x hx := by
    have hx : Type50.WF v x := hx
    exact hx.graphic_displacement
  wf x hx l hl := by
    have hx : Type50.WF v x := hx
    constructor
    · intro (k : Type50.WF v { x with graphic_displacement := l })
      skip
      exact (k.graphic_displacement).1
    · intro h
      exact { hx with graphic_displacement := ⟨h, hl⟩ }
  splits x hx := by
    have hx : Type50.WF v x := hx
    show Splits _ (fun y => Type50.layout v { x with graphic_displacement := y }) _
    simp only [Type50.layout]
    walk Splits.here

theorem Type50.fixedLists (v : Version) : ∀ f ∈ Node.fixedLists v (.record .Type50), ListField.FixedOK (.record .Type50) v f.1 f.2 :=
  forall_cons (Type50.fixedList_graphic_displacement v) (forall_nil)

theorem Creatable.fixedList_resource_costs (v : Version) : ListField.FixedOK (.record .Creatable) v 3 ⟨"resource_costs", Genie.ResourceCost, fun (x : Genie.Creatable) => x.resource_costs, fun x l => { x with resource_costs := l }, ResourceCost.layout v, ResourceCost.WF v⟩ where
  self _ := rfl
  get_set _ _ := rfl
  clean := fun e h => clean_class .ResourceCost e h
  old x hx := by
    obtain ⟨hk, hx⟩ : ∃ hk, Creatable.WFWith v hk x := hx
    exact hx.resource_costs
  wf x hx l hl := by
    obtain ⟨hk, hx⟩ : ∃ hk, Creatable.WFWith v hk x := hx
    constructor
    · intro (k : ∃ hk, Creatable.WFWith v hk { x with resource_costs := l })
      obtain ⟨_, k⟩ := k
      exact (k.resource_costs).1
    · intro h
      exact ⟨hk, { hx with resource_costs := ⟨h, hl⟩ }⟩
  splits x hx := by
    obtain ⟨hk, hx⟩ : ∃ hk, Creatable.WFWith v hk x := hx
    show Splits _ (fun y => Creatable.layout v { x with resource_costs := y }) _
    simp only [Creatable.layout]
    exact Splits.left Splits.here

theorem Creatable.fixedLists (v : Version) : ∀ f ∈ Node.fixedLists v (.record .Creatable), ListField.FixedOK (.record .Creatable) v f.1 f.2 :=
  forall_cons (Creatable.fixedList_resource_costs v) (forall_nil)

theorem Building.fixedList_annexes (v : Version) : ListField.FixedOK (.record .Building) v 4 ⟨"annexes", Genie.BuildingAnnex, fun (x : Genie.Building) => x.annexes, fun x l => { x with annexes := l }, BuildingAnnex.layout v, BuildingAnnex.WF v⟩ where
  self _ := rfl
  get_set _ _ := rfl
  clean := fun e h => clean_class .BuildingAnnex e h
  old x hx := by
    have hx : Building.WF v x := hx
    exact hx.annexes
  wf x hx l hl := by
    have hx : Building.WF v x := hx
    constructor
    · intro (k : Building.WF v { x with annexes := l })
      skip
      exact (k.annexes).1
    · intro h
      exact { hx with annexes := ⟨h, hl⟩ }
  splits x hx := by
    have hx : Building.WF v x := hx
    show Splits _ (fun y => Building.layout v { x with annexes := y }) _
    simp only [Building.layout]
    walk Splits.here

theorem Building.fixedLists (v : Version) : ∀ f ∈ Node.fixedLists v (.record .Building), ListField.FixedOK (.record .Building) v f.1 f.2 :=
  forall_cons (Building.fixedList_annexes v) (forall_nil)

theorem Unit.fixedList_resource_storages (v : Version) : ListField.FixedOK (.record .Unit) v 3 ⟨"resource_storages", Genie.ResourceStorage, fun (x : Genie.Unit) => x.resource_storages, fun x l => { x with resource_storages := l }, ResourceStorage.layout v, ResourceStorage.WF v⟩ where
  self _ := rfl
  get_set _ _ := rfl
  clean := fun e h => clean_class .ResourceStorage e h
  old x hx := by
    have hx : Unit.WF v x := hx
    exact hx.resource_storages
  wf x hx l hl := by
    have hx : Unit.WF v x := hx
    constructor
    · intro (k : Unit.WF v { x with resource_storages := l })
      skip
      exact (k.resource_storages).1
    · intro h
      exact { hx with resource_storages := ⟨h, hl⟩ }
  splits x hx := by
    have hx : Unit.WF v x := hx
    show Splits _ (fun y => Unit.layout v { x with resource_storages := y }) _
    simp only [Unit.layout_eq]
    walk Splits.here

theorem Unit.fixedLists (v : Version) : ∀ f ∈ Node.fixedLists v (.record .Unit), ListField.FixedOK (.record .Unit) v f.1 f.2 :=
  forall_cons (Unit.fixedList_resource_storages v) (forall_nil)

theorem Node.fixedLists_ok (v : Version) (n : Node) : ∀ f ∈ n.fixedLists v, ListField.FixedOK n v f.1 f.2 := by
  match n with
  | .record .Graphic => exact Graphic.fixedLists v
  | .record .Terrain => exact Terrain.fixedLists v
  | .record .TerrainBlock => exact TerrainBlock.fixedLists v
  | .record .Tech => exact Tech.fixedLists v
  | .record .Common => exact Common.fixedLists v
  | .record .TechTreeAge => exact TechTreeAge.fixedLists v
  | .record .BuildingConnection => exact BuildingConnection.fixedLists v
  | .record .Bird => exact Bird.fixedLists v
  | .record .Type50 => exact Type50.fixedLists v
  | .record .Creatable => exact Creatable.fixedLists v
  | .record .Building => exact Building.fixedLists v
  | .record .Unit => exact Unit.fixedLists v
  | .record .EffectCommand => exact forall_nil
  | .record .Effect => exact forall_nil
  | .record .SoundItem => exact forall_nil
  | .record .Sound => exact forall_nil
  | .record .PlayerColour => exact forall_nil
  | .record .GraphicDelta => exact forall_nil
  | .record .GraphicAngleSound => exact forall_nil
  | .record .TerrainPassGraphic => exact forall_nil
  | .record .FrameData => exact forall_nil
  | .record .TileSize => exact forall_nil
  | .record .MapUnit => exact forall_nil
  | .record .MapTerrain => exact forall_nil
  | .record .MapLand => exact forall_nil
  | .record .MapElevation => exact forall_nil
  | .record .MapInfo => exact forall_nil
  | .record .RandomMaps => exact forall_nil
  | .record .ResearchResourceCost => exact forall_nil
  | .record .ResearchLocation => exact forall_nil
  | .record .UnitConnection => exact forall_nil
  | .record .ResearchConnection => exact forall_nil
  | .record .TechTree => exact forall_nil
  | .record .ResourceStorage => exact forall_nil
  | .record .DamageGraphic => exact forall_nil
  | .record .DeadFish => exact forall_nil
  | .record .Task => exact forall_nil
  | .record .AttackOrArmor => exact forall_nil
  | .record .Projectile => exact forall_nil
  | .record .ResourceCost => exact forall_nil
  | .record .TrainLocation => exact forall_nil
  | .record .BuildingAnnex => exact forall_nil
  | .record .UnitHeaders => exact forall_nil
  | .record .Civ => exact forall_nil
  | .record (.TerrainRestriction k) => exact forall_nil
  | .file => exact forall_nil

end Genie
