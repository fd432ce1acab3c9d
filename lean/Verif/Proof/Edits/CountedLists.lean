import Verif.Proof.Edits.FieldDefs
/-! # Lists with a count (generated by `tools/gen_edit_fields.py`) -/

namespace Genie
open Layout
set_option linter.unusedVariables false
set_option linter.unusedSimpArgs false

theorem Effect.countedList_effect_commands (v : Version) : ListField.CountedOK (.record .Effect) v 32767 ⟨"effect_commands", Genie.EffectCommand, fun (x : Genie.Effect) => x.effect_commands, fun x l => { x with effect_commands := l }, EffectCommand.layout v, EffectCommand.WF v⟩ where
  self _ := rfl
  get_set _ _ := rfl
  old x hx := by
    have hx : Effect.WF v x := hx
    exact hx.effect_commands
  wf x hx l := by
    have hx : Effect.WF v x := hx
    constructor
    · intro (k : Effect.WF v { x with effect_commands := l })
      skip
      exact k.effect_commands
    · intro h
      exact { hx with effect_commands := h }
  splits x hx := by
    have hx : Effect.WF v x := hx
    show Splits _ (fun y => Effect.layout v { x with effect_commands := y }) _
    simp only [Effect.layout]
    repeat (first | (with_reducible apply Splits.head; exact Splits.here; done) | with_reducible apply Splits.tail | refine Splits.tailP (fun y h => sameLength_countU8 h) ?_ | refine Splits.tailP (fun y h => sameLength_countI16 h) ?_ | refine Splits.tailP (fun y h => sameLength_countI32 h) ?_)

theorem Effect.countedLists (v : Version) : ∀ f ∈ Node.countedLists v (.record .Effect), ListField.CountedOK (.record .Effect) v f.1 f.2 :=
  forall_cons (Effect.countedList_effect_commands v) (forall_nil)

theorem Sound.countedList_items (v : Version) : ListField.CountedOK (.record .Sound) v 32767 ⟨"items", Genie.SoundItem, fun (x : Genie.Sound) => x.items, fun x l => { x with items := l }, SoundItem.layout v, SoundItem.WF v⟩ where
  self _ := rfl
  get_set _ _ := rfl
  old x hx := by
    have hx : Sound.WF v x := hx
    exact hx.items
  wf x hx l := by
    have hx : Sound.WF v x := hx
    constructor
    · intro (k : Sound.WF v { x with items := l })
      skip
      exact k.items
    · intro h
      exact { hx with items := h }
  splits x hx := by
    have hx : Sound.WF v x := hx
    show Splits _ (fun y => Sound.layout v { x with items := y }) _
    simp only [Sound.layout]
    repeat (first | (with_reducible apply Splits.head; exact Splits.here; done) | with_reducible apply Splits.tail | refine Splits.tailP (fun y h => sameLength_countU8 h) ?_ | refine Splits.tailP (fun y h => sameLength_countI16 h) ?_ | refine Splits.tailP (fun y h => sameLength_countI32 h) ?_)

theorem Sound.countedLists (v : Version) : ∀ f ∈ Node.countedLists v (.record .Sound), ListField.CountedOK (.record .Sound) v f.1 f.2 :=
  forall_cons (Sound.countedList_items v) (forall_nil)

theorem Graphic.countedList_deltas (v : Version) : ListField.CountedOK (.record .Graphic) v 32767 ⟨"deltas", Genie.GraphicDelta, fun (x : Genie.Graphic) => x.deltas, fun x l => { x with deltas := l }, GraphicDelta.layout v, GraphicDelta.WF v⟩ where
  self _ := rfl
  get_set _ _ := rfl
  old x hx := by
    have hx : Graphic.WF v x := hx
    exact hx.deltas
  wf x hx l := by
    have hx : Graphic.WF v x := hx
    constructor
    · intro (k : Graphic.WF v { x with deltas := l })
      skip
      exact k.deltas
    · intro h
      exact { hx with deltas := h }
  splits x hx := by
    have hx : Graphic.WF v x := hx
    show Splits _ (fun y => Graphic.layout v { x with deltas := y }) _
    simp only [Graphic.layout]
    repeat (first | (with_reducible apply Splits.head; exact Splits.here; done) | with_reducible apply Splits.tail | refine Splits.tailP (fun y h => sameLength_countU8 h) ?_ | refine Splits.tailP (fun y h => sameLength_countI16 h) ?_ | refine Splits.tailP (fun y h => sameLength_countI32 h) ?_)

theorem Graphic.countedLists (v : Version) : ∀ f ∈ Node.countedLists v (.record .Graphic), ListField.CountedOK (.record .Graphic) v f.1 f.2 :=
  forall_cons (Graphic.countedList_deltas v) (forall_nil)

theorem Tech.countedList_research_locations (v : Version) (hv : 88 ≤ v.num) : ListField.CountedOK (.record .Tech) v 32767 ⟨"research_locations", Genie.ResearchLocation, fun (x : Genie.Tech) => x.research_locations, fun x l => { x with research_locations := l }, ResearchLocation.layout v, ResearchLocation.WF v⟩ where
  self _ := rfl
  get_set _ _ := rfl
  old x hx := by
    have hx : Tech.WF v x := hx
    exact hx.research_locations.of_ge' hv
  wf x hx l := by
    have hx : Tech.WF v x := hx
    constructor
    · intro (k : Tech.WF v { x with research_locations := l })
      skip
      exact k.research_locations.of_ge' hv
    · intro h
      exact { hx with research_locations := Since.of_ge hv h }
  splits x hx := by
    have hx : Tech.WF v x := hx
    show Splits _ (fun y => Tech.layout v { x with research_locations := y }) _
    simp only [Tech.layout, if_pos hv]
    repeat (first | (with_reducible apply Splits.head; exact Splits.here; done) | with_reducible apply Splits.tail | refine Splits.tailP (fun y h => sameLength_countU8 h) ?_ | refine Splits.tailP (fun y h => sameLength_countI16 h) ?_ | refine Splits.tailP (fun y h => sameLength_countI32 h) ?_)

theorem Tech.countedLists (v : Version) : ∀ f ∈ Node.countedLists v (.record .Tech), ListField.CountedOK (.record .Tech) v f.1 f.2 :=
  forall_append (forall_nil) (forall_ite fun hv => forall_cons (Tech.countedList_research_locations v hv) (forall_nil))

theorem TechTreeAge.countedList_buildings (v : Version) : ListField.CountedOK (.record .TechTreeAge) v 255 ⟨"buildings", Int, fun (x : Genie.TechTreeAge) => x.buildings, fun x l => { x with buildings := l }, i32, IsI32⟩ where
  self _ := rfl
  get_set _ _ := rfl
  old x hx := by
    have hx : TechTreeAge.WF v x := hx
    exact hx.buildings
  wf x hx l := by
    have hx : TechTreeAge.WF v x := hx
    constructor
    · intro (k : TechTreeAge.WF v { x with buildings := l })
      skip
      exact k.buildings
    · intro h
      exact { hx with buildings := h }
  splits x hx := by
    have hx : TechTreeAge.WF v x := hx
    show Splits _ (fun y => TechTreeAge.layout v { x with buildings := y }) _
    simp only [TechTreeAge.layout]
    repeat (first | (with_reducible apply Splits.head; exact Splits.here; done) | with_reducible apply Splits.tail | refine Splits.tailP (fun y h => sameLength_countU8 h) ?_ | refine Splits.tailP (fun y h => sameLength_countI16 h) ?_ | refine Splits.tailP (fun y h => sameLength_countI32 h) ?_)

theorem TechTreeAge.countedList_units (v : Version) : ListField.CountedOK (.record .TechTreeAge) v 255 ⟨"units", Int, fun (x : Genie.TechTreeAge) => x.units, fun x l => { x with units := l }, i32, IsI32⟩ where
  self _ := rfl
  get_set _ _ := rfl
  old x hx := by
    have hx : TechTreeAge.WF v x := hx
    exact hx.units
  wf x hx l := by
    have hx : TechTreeAge.WF v x := hx
    constructor
    · intro (k : TechTreeAge.WF v { x with units := l })
      skip
      exact k.units
    · intro h
      exact { hx with units := h }
  splits x hx := by
    have hx : TechTreeAge.WF v x := hx
    show Splits _ (fun y => TechTreeAge.layout v { x with units := y }) _
    simp only [TechTreeAge.layout]
    repeat (first | (with_reducible apply Splits.head; exact Splits.here; done) | with_reducible apply Splits.tail | refine Splits.tailP (fun y h => sameLength_countU8 h) ?_ | refine Splits.tailP (fun y h => sameLength_countI16 h) ?_ | refine Splits.tailP (fun y h => sameLength_countI32 h) ?_)

theorem TechTreeAge.countedList_techs (v : Version) : ListField.CountedOK (.record .TechTreeAge) v 255 ⟨"techs", Int, fun (x : Genie.TechTreeAge) => x.techs, fun x l => { x with techs := l }, i32, IsI32⟩ where
  self _ := rfl
  get_set _ _ := rfl
  old x hx := by
    have hx : TechTreeAge.WF v x := hx
    exact hx.techs
  wf x hx l := by
    have hx : TechTreeAge.WF v x := hx
    constructor
    · intro (k : TechTreeAge.WF v { x with techs := l })
      skip
      exact k.techs
    · intro h
      exact { hx with techs := h }
  splits x hx := by
    have hx : TechTreeAge.WF v x := hx
    show Splits _ (fun y => TechTreeAge.layout v { x with techs := y }) _
    simp only [TechTreeAge.layout]
    repeat (first | (with_reducible apply Splits.head; exact Splits.here; done) | with_reducible apply Splits.tail | refine Splits.tailP (fun y h => sameLength_countU8 h) ?_ | refine Splits.tailP (fun y h => sameLength_countI16 h) ?_ | refine Splits.tailP (fun y h => sameLength_countI32 h) ?_)

theorem TechTreeAge.countedLists (v : Version) : ∀ f ∈ Node.countedLists v (.record .TechTreeAge), ListField.CountedOK (.record .TechTreeAge) v f.1 f.2 :=
  forall_cons (TechTreeAge.countedList_buildings v) (forall_cons (TechTreeAge.countedList_units v) (forall_cons (TechTreeAge.countedList_techs v) (forall_nil)))

theorem BuildingConnection.countedList_buildings (v : Version) : ListField.CountedOK (.record .BuildingConnection) v 255 ⟨"buildings", Int, fun (x : Genie.BuildingConnection) => x.buildings, fun x l => { x with buildings := l }, i32, IsI32⟩ where
  self _ := rfl
  get_set _ _ := rfl
  old x hx := by
    have hx : BuildingConnection.WF v x := hx
    exact hx.buildings
  wf x hx l := by
    have hx : BuildingConnection.WF v x := hx
    constructor
    · intro (k : BuildingConnection.WF v { x with buildings := l })
      skip
      exact k.buildings
    · intro h
      exact { hx with buildings := h }
  splits x hx := by
    have hx : BuildingConnection.WF v x := hx
    show Splits _ (fun y => BuildingConnection.layout v { x with buildings := y }) _
    simp only [BuildingConnection.layout]
    repeat (first | (with_reducible apply Splits.head; exact Splits.here; done) | with_reducible apply Splits.tail | refine Splits.tailP (fun y h => sameLength_countU8 h) ?_ | refine Splits.tailP (fun y h => sameLength_countI16 h) ?_ | refine Splits.tailP (fun y h => sameLength_countI32 h) ?_)

theorem BuildingConnection.countedList_units (v : Version) : ListField.CountedOK (.record .BuildingConnection) v 255 ⟨"units", Int, fun (x : Genie.BuildingConnection) => x.units, fun x l => { x with units := l }, i32, IsI32⟩ where
  self _ := rfl
  get_set _ _ := rfl
  old x hx := by
    have hx : BuildingConnection.WF v x := hx
    exact hx.units
  wf x hx l := by
    have hx : BuildingConnection.WF v x := hx
    constructor
    · intro (k : BuildingConnection.WF v { x with units := l })
      skip
      exact k.units
    · intro h
      exact { hx with units := h }
  splits x hx := by
    have hx : BuildingConnection.WF v x := hx
    show Splits _ (fun y => BuildingConnection.layout v { x with units := y }) _
    simp only [BuildingConnection.layout]
    repeat (first | (with_reducible apply Splits.head; exact Splits.here; done) | with_reducible apply Splits.tail | refine Splits.tailP (fun y h => sameLength_countU8 h) ?_ | refine Splits.tailP (fun y h => sameLength_countI16 h) ?_ | refine Splits.tailP (fun y h => sameLength_countI32 h) ?_)

theorem BuildingConnection.countedList_techs (v : Version) : ListField.CountedOK (.record .BuildingConnection) v 255 ⟨"techs", Int, fun (x : Genie.BuildingConnection) => x.techs, fun x l => { x with techs := l }, i32, IsI32⟩ where
  self _ := rfl
  get_set _ _ := rfl
  old x hx := by
    have hx : BuildingConnection.WF v x := hx
    exact hx.techs
  wf x hx l := by
    have hx : BuildingConnection.WF v x := hx
    constructor
    · intro (k : BuildingConnection.WF v { x with techs := l })
      skip
      exact k.techs
    · intro h
      exact { hx with techs := h }
  splits x hx := by
    have hx : BuildingConnection.WF v x := hx
    show Splits _ (fun y => BuildingConnection.layout v { x with techs := y }) _
    simp only [BuildingConnection.layout]
    repeat (first | (with_reducible apply Splits.head; exact Splits.here; done) | with_reducible apply Splits.tail | refine Splits.tailP (fun y h => sameLength_countU8 h) ?_ | refine Splits.tailP (fun y h => sameLength_countI16 h) ?_ | refine Splits.tailP (fun y h => sameLength_countI32 h) ?_)

theorem BuildingConnection.countedLists (v : Version) : ∀ f ∈ Node.countedLists v (.record .BuildingConnection), ListField.CountedOK (.record .BuildingConnection) v f.1 f.2 :=
  forall_cons (BuildingConnection.countedList_buildings v) (forall_cons (BuildingConnection.countedList_units v) (forall_cons (BuildingConnection.countedList_techs v) (forall_nil)))

theorem UnitConnection.countedList_units (v : Version) : ListField.CountedOK (.record .UnitConnection) v 255 ⟨"units", Int, fun (x : Genie.UnitConnection) => x.units, fun x l => { x with units := l }, i32, IsI32⟩ where
  self _ := rfl
  get_set _ _ := rfl
  old x hx := by
    have hx : UnitConnection.WF v x := hx
    exact hx.units
  wf x hx l := by
    have hx : UnitConnection.WF v x := hx
    constructor
    · intro (k : UnitConnection.WF v { x with units := l })
      skip
      exact k.units
    · intro h
      exact { hx with units := h }
  splits x hx := by
    have hx : UnitConnection.WF v x := hx
    show Splits _ (fun y => UnitConnection.layout v { x with units := y }) _
    simp only [UnitConnection.layout]
    repeat (first | (with_reducible apply Splits.head; exact Splits.here; done) | with_reducible apply Splits.tail | refine Splits.tailP (fun y h => sameLength_countU8 h) ?_ | refine Splits.tailP (fun y h => sameLength_countI16 h) ?_ | refine Splits.tailP (fun y h => sameLength_countI32 h) ?_)

theorem UnitConnection.countedLists (v : Version) : ∀ f ∈ Node.countedLists v (.record .UnitConnection), ListField.CountedOK (.record .UnitConnection) v f.1 f.2 :=
  forall_cons (UnitConnection.countedList_units v) (forall_nil)

theorem ResearchConnection.countedList_buildings (v : Version) : ListField.CountedOK (.record .ResearchConnection) v 255 ⟨"buildings", Int, fun (x : Genie.ResearchConnection) => x.buildings, fun x l => { x with buildings := l }, i32, IsI32⟩ where
  self _ := rfl
  get_set _ _ := rfl
  old x hx := by
    have hx : ResearchConnection.WF v x := hx
    exact hx.buildings
  wf x hx l := by
    have hx : ResearchConnection.WF v x := hx
    constructor
    · intro (k : ResearchConnection.WF v { x with buildings := l })
      skip
      exact k.buildings
    · intro h
      exact { hx with buildings := h }
  splits x hx := by
    have hx : ResearchConnection.WF v x := hx
    show Splits _ (fun y => ResearchConnection.layout v { x with buildings := y }) _
    simp only [ResearchConnection.layout]
    repeat (first | (with_reducible apply Splits.head; exact Splits.here; done) | with_reducible apply Splits.tail | refine Splits.tailP (fun y h => sameLength_countU8 h) ?_ | refine Splits.tailP (fun y h => sameLength_countI16 h) ?_ | refine Splits.tailP (fun y h => sameLength_countI32 h) ?_)

theorem ResearchConnection.countedList_units (v : Version) : ListField.CountedOK (.record .ResearchConnection) v 255 ⟨"units", Int, fun (x : Genie.ResearchConnection) => x.units, fun x l => { x with units := l }, i32, IsI32⟩ where
  self _ := rfl
  get_set _ _ := rfl
  old x hx := by
    have hx : ResearchConnection.WF v x := hx
    exact hx.units
  wf x hx l := by
    have hx : ResearchConnection.WF v x := hx
    constructor
    · intro (k : ResearchConnection.WF v { x with units := l })
      skip
      exact k.units
    · intro h
      exact { hx with units := h }
  splits x hx := by
    have hx : ResearchConnection.WF v x := hx
    show Splits _ (fun y => ResearchConnection.layout v { x with units := y }) _
    simp only [ResearchConnection.layout]
    repeat (first | (with_reducible apply Splits.head; exact Splits.here; done) | with_reducible apply Splits.tail | refine Splits.tailP (fun y h => sameLength_countU8 h) ?_ | refine Splits.tailP (fun y h => sameLength_countI16 h) ?_ | refine Splits.tailP (fun y h => sameLength_countI32 h) ?_)

theorem ResearchConnection.countedList_techs (v : Version) : ListField.CountedOK (.record .ResearchConnection) v 255 ⟨"techs", Int, fun (x : Genie.ResearchConnection) => x.techs, fun x l => { x with techs := l }, i32, IsI32⟩ where
  self _ := rfl
  get_set _ _ := rfl
  old x hx := by
    have hx : ResearchConnection.WF v x := hx
    exact hx.techs
  wf x hx l := by
    have hx : ResearchConnection.WF v x := hx
    constructor
    · intro (k : ResearchConnection.WF v { x with techs := l })
      skip
      exact k.techs
    · intro h
      exact { hx with techs := h }
  splits x hx := by
    have hx : ResearchConnection.WF v x := hx
    show Splits _ (fun y => ResearchConnection.layout v { x with techs := y }) _
    simp only [ResearchConnection.layout]
    repeat (first | (with_reducible apply Splits.head; exact Splits.here; done) | with_reducible apply Splits.tail | refine Splits.tailP (fun y h => sameLength_countU8 h) ?_ | refine Splits.tailP (fun y h => sameLength_countI16 h) ?_ | refine Splits.tailP (fun y h => sameLength_countI32 h) ?_)

theorem ResearchConnection.countedLists (v : Version) : ∀ f ∈ Node.countedLists v (.record .ResearchConnection), ListField.CountedOK (.record .ResearchConnection) v f.1 f.2 :=
  forall_cons (ResearchConnection.countedList_buildings v) (forall_cons (ResearchConnection.countedList_units v) (forall_cons (ResearchConnection.countedList_techs v) (forall_nil)))

theorem TechTree.countedList_tech_tree_ages (v : Version) : ListField.CountedOK (.record .TechTree) v 255 ⟨"tech_tree_ages", Genie.TechTreeAge, fun (x : Genie.TechTree) => x.tech_tree_ages, fun x l => { x with tech_tree_ages := l }, TechTreeAge.layout v, TechTreeAge.WF v⟩ where
  self _ := rfl
  get_set _ _ := rfl
  old x hx := by
    have hx : TechTree.WF v x := hx
    exact hx.tech_tree_ages
  wf x hx l := by
    have hx : TechTree.WF v x := hx
    constructor
    · intro (k : TechTree.WF v { x with tech_tree_ages := l })
      skip
      exact k.tech_tree_ages
    · intro h
      exact { hx with tech_tree_ages := h }
  splits x hx := by
    have hx : TechTree.WF v x := hx
    show Splits _ (fun y => TechTree.layout v { x with tech_tree_ages := y }) _
    simp only [TechTree.layout]
    repeat (first | (with_reducible apply Splits.head; exact Splits.here; done) | with_reducible apply Splits.tail | refine Splits.tailP (fun y h => sameLength_countU8 h) ?_ | refine Splits.tailP (fun y h => sameLength_countI16 h) ?_ | refine Splits.tailP (fun y h => sameLength_countI32 h) ?_)

theorem TechTree.countedList_building_connections (v : Version) : ListField.CountedOK (.record .TechTree) v 255 ⟨"building_connections", Genie.BuildingConnection, fun (x : Genie.TechTree) => x.building_connections, fun x l => { x with building_connections := l }, BuildingConnection.layout v, BuildingConnection.WF v⟩ where
  self _ := rfl
  get_set _ _ := rfl
  old x hx := by
    have hx : TechTree.WF v x := hx
    exact hx.building_connections
  wf x hx l := by
    have hx : TechTree.WF v x := hx
    constructor
    · intro (k : TechTree.WF v { x with building_connections := l })
      skip
      exact k.building_connections
    · intro h
      exact { hx with building_connections := h }
  splits x hx := by
    have hx : TechTree.WF v x := hx
    show Splits _ (fun y => TechTree.layout v { x with building_connections := y }) _
    simp only [TechTree.layout]
    repeat (first | (with_reducible apply Splits.head; exact Splits.here; done) | with_reducible apply Splits.tail | refine Splits.tailP (fun y h => sameLength_countU8 h) ?_ | refine Splits.tailP (fun y h => sameLength_countI16 h) ?_ | refine Splits.tailP (fun y h => sameLength_countI32 h) ?_)

theorem TechTree.countedList_unit_connections (v : Version) : ListField.CountedOK (.record .TechTree) v 255 ⟨"unit_connections", Genie.UnitConnection, fun (x : Genie.TechTree) => x.unit_connections, fun x l => { x with unit_connections := l }, UnitConnection.layout v, UnitConnection.WF v⟩ where
  self _ := rfl
  get_set _ _ := rfl
  old x hx := by
    have hx : TechTree.WF v x := hx
    exact hx.unit_connections
  wf x hx l := by
    have hx : TechTree.WF v x := hx
    constructor
    · intro (k : TechTree.WF v { x with unit_connections := l })
      skip
      exact k.unit_connections
    · intro h
      exact { hx with unit_connections := h }
  splits x hx := by
    have hx : TechTree.WF v x := hx
    show Splits _ (fun y => TechTree.layout v { x with unit_connections := y }) _
    simp only [TechTree.layout]
    repeat (first | (with_reducible apply Splits.head; exact Splits.here; done) | with_reducible apply Splits.tail | refine Splits.tailP (fun y h => sameLength_countU8 h) ?_ | refine Splits.tailP (fun y h => sameLength_countI16 h) ?_ | refine Splits.tailP (fun y h => sameLength_countI32 h) ?_)

theorem TechTree.countedList_research_connections (v : Version) : ListField.CountedOK (.record .TechTree) v 255 ⟨"research_connections", Genie.ResearchConnection, fun (x : Genie.TechTree) => x.research_connections, fun x l => { x with research_connections := l }, ResearchConnection.layout v, ResearchConnection.WF v⟩ where
  self _ := rfl
  get_set _ _ := rfl
  old x hx := by
    have hx : TechTree.WF v x := hx
    exact hx.research_connections
  wf x hx l := by
    have hx : TechTree.WF v x := hx
    constructor
    · intro (k : TechTree.WF v { x with research_connections := l })
      skip
      exact k.research_connections
    · intro h
      exact { hx with research_connections := h }
  splits x hx := by
    have hx : TechTree.WF v x := hx
    show Splits _ (fun y => TechTree.layout v { x with research_connections := y }) _
    simp only [TechTree.layout]
    repeat (first | (with_reducible apply Splits.head; exact Splits.here; done) | with_reducible apply Splits.tail | refine Splits.tailP (fun y h => sameLength_countU8 h) ?_ | refine Splits.tailP (fun y h => sameLength_countI16 h) ?_ | refine Splits.tailP (fun y h => sameLength_countI32 h) ?_)

theorem TechTree.countedLists (v : Version) : ∀ f ∈ Node.countedLists v (.record .TechTree), ListField.CountedOK (.record .TechTree) v f.1 f.2 :=
  forall_cons (TechTree.countedList_tech_tree_ages v) (forall_cons (TechTree.countedList_building_connections v) (forall_cons (TechTree.countedList_unit_connections v) (forall_cons (TechTree.countedList_research_connections v) (forall_nil))))

theorem Bird.countedList_drop_sites (v : Version) (hv : 78 ≤ v.num) : ListField.CountedOK (.record .Bird) v 32767 ⟨"drop_sites", Int, fun (x : Genie.Bird) => x.drop_sites, fun x l => { x with drop_sites := l }, i16, IsI16⟩ where
  self _ := rfl
  get_set _ _ := rfl
  old x hx := by
    have hx : Bird.WF v x := hx
    exact hx.drop_sites.of_ge' hv
  wf x hx l := by
    have hx : Bird.WF v x := hx
    constructor
    · intro (k : Bird.WF v { x with drop_sites := l })
      skip
      exact k.drop_sites.of_ge' hv
    · intro h
      exact { hx with drop_sites := Since.of_ge hv h }
  splits x hx := by
    have hx : Bird.WF v x := hx
    show Splits _ (fun y => Bird.layout v { x with drop_sites := y }) _
    simp only [Bird.layout, since, if_pos hv]
    repeat (first | (with_reducible apply Splits.head; exact Splits.here; done) | with_reducible apply Splits.tail | refine Splits.tailP (fun y h => sameLength_countU8 h) ?_ | refine Splits.tailP (fun y h => sameLength_countI16 h) ?_ | refine Splits.tailP (fun y h => sameLength_countI32 h) ?_)

theorem Bird.countedList_tasks (v : Version) : ListField.CountedOK (.record .Bird) v 32767 ⟨"tasks", Genie.Task, fun (x : Genie.Bird) => x.tasks, fun x l => { x with tasks := l }, Task.layout v, Task.WF v⟩ where
  self _ := rfl
  get_set _ _ := rfl
  old x hx := by
    have hx : Bird.WF v x := hx
    exact hx.tasks
  wf x hx l := by
    have hx : Bird.WF v x := hx
    constructor
    · intro (k : Bird.WF v { x with tasks := l })
      skip
      exact k.tasks
    · intro h
      exact { hx with tasks := h }
  splits x hx := by
    have hx : Bird.WF v x := hx
    show Splits _ (fun y => Bird.layout v { x with tasks := y }) _
    simp only [Bird.layout]
    repeat (first | (with_reducible apply Splits.head; exact Splits.here; done) | with_reducible apply Splits.tail | refine Splits.tailP (fun y h => sameLength_countU8 h) ?_ | refine Splits.tailP (fun y h => sameLength_countI16 h) ?_ | refine Splits.tailP (fun y h => sameLength_countI32 h) ?_)

theorem Bird.countedLists (v : Version) : ∀ f ∈ Node.countedLists v (.record .Bird), ListField.CountedOK (.record .Bird) v f.1 f.2 :=
  forall_append (forall_cons (Bird.countedList_tasks v) (forall_nil)) (forall_ite fun hv => forall_cons (Bird.countedList_drop_sites v hv) (forall_nil))

theorem Type50.countedList_attacks (v : Version) : ListField.CountedOK (.record .Type50) v 32767 ⟨"attacks", Genie.AttackOrArmor, fun (x : Genie.Type50) => x.attacks, fun x l => { x with attacks := l }, AttackOrArmor.layout v, AttackOrArmor.WF v⟩ where
  self _ := rfl
  get_set _ _ := rfl
  old x hx := by
    have hx : Type50.WF v x := hx
    exact hx.attacks
  wf x hx l := by
    have hx : Type50.WF v x := hx
    constructor
    · intro (k : Type50.WF v { x with attacks := l })
      skip
      exact k.attacks
    · intro h
      exact { hx with attacks := h }
  splits x hx := by
    have hx : Type50.WF v x := hx
    show Splits _ (fun y => Type50.layout v { x with attacks := y }) _
    simp only [Type50.layout]
    repeat (first | (with_reducible apply Splits.head; exact Splits.here; done) | with_reducible apply Splits.tail | refine Splits.tailP (fun y h => sameLength_countU8 h) ?_ | refine Splits.tailP (fun y h => sameLength_countI16 h) ?_ | refine Splits.tailP (fun y h => sameLength_countI32 h) ?_)

theorem Type50.countedList_armours (v : Version) : ListField.CountedOK (.record .Type50) v 32767 ⟨"armours", Genie.AttackOrArmor, fun (x : Genie.Type50) => x.armours, fun x l => { x with armours := l }, AttackOrArmor.layout v, AttackOrArmor.WF v⟩ where
  self _ := rfl
  get_set _ _ := rfl
  old x hx := by
    have hx : Type50.WF v x := hx
    exact hx.armours
  wf x hx l := by
    have hx : Type50.WF v x := hx
    constructor
    · intro (k : Type50.WF v { x with armours := l })
      skip
      exact k.armours
    · intro h
      exact { hx with armours := h }
  splits x hx := by
    have hx : Type50.WF v x := hx
    show Splits _ (fun y => Type50.layout v { x with armours := y }) _
    simp only [Type50.layout]
    repeat (first | (with_reducible apply Splits.head; exact Splits.here; done) | with_reducible apply Splits.tail | refine Splits.tailP (fun y h => sameLength_countU8 h) ?_ | refine Splits.tailP (fun y h => sameLength_countI16 h) ?_ | refine Splits.tailP (fun y h => sameLength_countI32 h) ?_)

theorem Type50.countedLists (v : Version) : ∀ f ∈ Node.countedLists v (.record .Type50), ListField.CountedOK (.record .Type50) v f.1 f.2 :=
  forall_cons (Type50.countedList_attacks v) (forall_cons (Type50.countedList_armours v) (forall_nil))

theorem Creatable.countedList_train_locations (v : Version) (hv : 88 ≤ v.num) : ListField.CountedOK (.record .Creatable) v 32767 ⟨"train_locations", Genie.TrainLocation, fun (x : Genie.Creatable) => x.train_locations, fun x l => { x with train_locations := l }, TrainLocation.layout v, TrainLocation.WF v⟩ where
  self _ := rfl
  get_set _ _ := rfl
  old x hx := by
    obtain ⟨hk, hx⟩ : ∃ hk, Creatable.WFWith v hk x := hx
    exact hx.train_locations.of_ge' hv
  wf x hx l := by
    obtain ⟨hk, hx⟩ : ∃ hk, Creatable.WFWith v hk x := hx
    constructor
    · intro (k : ∃ hk, Creatable.WFWith v hk { x with train_locations := l })
      obtain ⟨_, k⟩ := k
      exact k.train_locations.of_ge' hv
    · intro h
      exact ⟨hk, { hx with train_locations := Since.of_ge hv h }⟩
  splits x hx := by
    obtain ⟨hk, hx⟩ : ∃ hk, Creatable.WFWith v hk x := hx
    show Splits _ (fun y => Creatable.layout v { x with train_locations := y }) _
    simp only [Creatable.layout, if_pos hv]
    apply Splits.right
    repeat (first | (with_reducible apply Splits.head; exact Splits.here; done) | with_reducible apply Splits.tail | refine Splits.tailP (fun y h => sameLength_countU8 h) ?_ | refine Splits.tailP (fun y h => sameLength_countI16 h) ?_ | refine Splits.tailP (fun y h => sameLength_countI32 h) ?_)

theorem Creatable.countedLists (v : Version) : ∀ f ∈ Node.countedLists v (.record .Creatable), ListField.CountedOK (.record .Creatable) v f.1 f.2 :=
  forall_append (forall_nil) (forall_ite fun hv => forall_cons (Creatable.countedList_train_locations v hv) (forall_nil))

theorem Unit.countedList_damage_graphics (v : Version) : ListField.CountedOK (.record .Unit) v 255 ⟨"damage_graphics", Genie.DamageGraphic, fun (x : Genie.Unit) => x.damage_graphics, fun x l => { x with damage_graphics := l }, DamageGraphic.layout v, DamageGraphic.WF v⟩ where
  self _ := rfl
  get_set _ _ := rfl
  old x hx := by
    have hx : Unit.WF v x := hx
    exact hx.damage_graphics
  wf x hx l := by
    have hx : Unit.WF v x := hx
    constructor
    · intro (k : Unit.WF v { x with damage_graphics := l })
      skip
      exact k.damage_graphics
    · intro h
      exact { hx with damage_graphics := h }
  splits x hx := by
    have hx : Unit.WF v x := hx
    show Splits _ (fun y => Unit.layout v { x with damage_graphics := y }) _
    simp only [Unit.layout_eq]
    repeat (first | (with_reducible apply Splits.head; exact Splits.here; done) | with_reducible apply Splits.tail | refine Splits.tailP (fun y h => sameLength_countU8 h) ?_ | refine Splits.tailP (fun y h => sameLength_countI16 h) ?_ | refine Splits.tailP (fun y h => sameLength_countI32 h) ?_)

theorem Unit.countedLists (v : Version) : ∀ f ∈ Node.countedLists v (.record .Unit), ListField.CountedOK (.record .Unit) v f.1 f.2 :=
  forall_cons (Unit.countedList_damage_graphics v) (forall_nil)

theorem Civ.countedList_resources (v : Version) : ListField.CountedOK (.record .Civ) v 32767 ⟨"resources", PyFloat, fun (x : Genie.Civ) => x.resources, fun x l => { x with resources := l }, f32, IsF32⟩ where
  self _ := rfl
  get_set _ _ := rfl
  old x hx := by
    have hx : Civ.WF v x := hx
    exact hx.resources
  wf x hx l := by
    have hx : Civ.WF v x := hx
    constructor
    · intro (k : Civ.WF v { x with resources := l })
      skip
      exact k.resources
    · intro h
      exact { hx with resources := h }
  splits x hx := by
    have hx : Civ.WF v x := hx
    show Splits _ (fun y => Civ.layout v { x with resources := y }) _
    simp only [Civ.layout]
    repeat (first | (with_reducible apply Splits.head; exact Splits.here; done) | with_reducible apply Splits.tail | refine Splits.tailP (fun y h => sameLength_countU8 h) ?_ | refine Splits.tailP (fun y h => sameLength_countI16 h) ?_ | refine Splits.tailP (fun y h => sameLength_countI32 h) ?_)

theorem Civ.countedLists (v : Version) : ∀ f ∈ Node.countedLists v (.record .Civ), ListField.CountedOK (.record .Civ) v f.1 f.2 :=
  forall_cons (Civ.countedList_resources v) (forall_nil)

theorem DatFile.countedList_player_colours (v : Version) : ListField.CountedOK .file v 32767 ⟨"player_colours", Genie.PlayerColour, fun (x : Genie.DatFile) => x.player_colours, fun x l => { x with player_colours := l }, PlayerColour.layout v, PlayerColour.WF v⟩ where
  self _ := rfl
  get_set _ _ := rfl
  old x hx := by
    have hx : DatFile.WFAt v x := hx
    exact hx.player_colours
  wf x hx l := by
    have hx : DatFile.WFAt v x := hx
    constructor
    · intro (k : DatFile.WFAt v { x with player_colours := l })
      skip
      exact k.player_colours
    · intro h
      exact { hx with player_colours := h }
  splits x hx := by
    have hx : DatFile.WFAt v x := hx
    show Splits _ (fun y => DatFile.layoutAt v { x with player_colours := y }) _
    simp only [DatFile.layout_eq]
    repeat (first | (with_reducible apply Splits.head; exact Splits.here; done) | with_reducible apply Splits.tail | refine Splits.tailP (fun y h => sameLength_countU8 h) ?_ | refine Splits.tailP (fun y h => sameLength_countI16 h) ?_ | refine Splits.tailP (fun y h => sameLength_countI32 h) ?_)

theorem DatFile.countedList_sounds (v : Version) : ListField.CountedOK .file v 32767 ⟨"sounds", Genie.Sound, fun (x : Genie.DatFile) => x.sounds, fun x l => { x with sounds := l }, Sound.layout v, Sound.WF v⟩ where
  self _ := rfl
  get_set _ _ := rfl
  old x hx := by
    have hx : DatFile.WFAt v x := hx
    exact hx.sounds
  wf x hx l := by
    have hx : DatFile.WFAt v x := hx
    constructor
    · intro (k : DatFile.WFAt v { x with sounds := l })
      skip
      exact k.sounds
    · intro h
      exact { hx with sounds := h }
  splits x hx := by
    have hx : DatFile.WFAt v x := hx
    show Splits _ (fun y => DatFile.layoutAt v { x with sounds := y }) _
    simp only [DatFile.layout_eq]
    repeat (first | (with_reducible apply Splits.head; exact Splits.here; done) | with_reducible apply Splits.tail | refine Splits.tailP (fun y h => sameLength_countU8 h) ?_ | refine Splits.tailP (fun y h => sameLength_countI16 h) ?_ | refine Splits.tailP (fun y h => sameLength_countI32 h) ?_)

theorem DatFile.countedList_effects (v : Version) : ListField.CountedOK .file v 2147483647 ⟨"effects", Genie.Effect, fun (x : Genie.DatFile) => x.effects, fun x l => { x with effects := l }, Effect.layout v, Effect.WF v⟩ where
  self _ := rfl
  get_set _ _ := rfl
  old x hx := by
    have hx : DatFile.WFAt v x := hx
    exact hx.effects
  wf x hx l := by
    have hx : DatFile.WFAt v x := hx
    constructor
    · intro (k : DatFile.WFAt v { x with effects := l })
      skip
      exact k.effects
    · intro h
      exact { hx with effects := h }
  splits x hx := by
    have hx : DatFile.WFAt v x := hx
    show Splits _ (fun y => DatFile.layoutAt v { x with effects := y }) _
    simp only [DatFile.layout_eq]
    repeat (first | (with_reducible apply Splits.head; exact Splits.here; done) | with_reducible apply Splits.tail | refine Splits.tailP (fun y h => sameLength_countU8 h) ?_ | refine Splits.tailP (fun y h => sameLength_countI16 h) ?_ | refine Splits.tailP (fun y h => sameLength_countI32 h) ?_)

theorem DatFile.countedList_unit_headers (v : Version) : ListField.CountedOK .file v 2147483647 ⟨"unit_headers", Genie.UnitHeaders, fun (x : Genie.DatFile) => x.unit_headers, fun x l => { x with unit_headers := l }, UnitHeaders.layout v, UnitHeaders.WF v⟩ where
  self _ := rfl
  get_set _ _ := rfl
  old x hx := by
    have hx : DatFile.WFAt v x := hx
    exact hx.unit_headers
  wf x hx l := by
    have hx : DatFile.WFAt v x := hx
    constructor
    · intro (k : DatFile.WFAt v { x with unit_headers := l })
      skip
      exact k.unit_headers
    · intro h
      exact { hx with unit_headers := h }
  splits x hx := by
    have hx : DatFile.WFAt v x := hx
    show Splits _ (fun y => DatFile.layoutAt v { x with unit_headers := y }) _
    simp only [DatFile.layout_eq]
    repeat (first | (with_reducible apply Splits.head; exact Splits.here; done) | with_reducible apply Splits.tail | refine Splits.tailP (fun y h => sameLength_countU8 h) ?_ | refine Splits.tailP (fun y h => sameLength_countI16 h) ?_ | refine Splits.tailP (fun y h => sameLength_countI32 h) ?_)

theorem DatFile.countedList_civs (v : Version) : ListField.CountedOK .file v 32767 ⟨"civs", Genie.Civ, fun (x : Genie.DatFile) => x.civs, fun x l => { x with civs := l }, Civ.layout v, Civ.WF v⟩ where
  self _ := rfl
  get_set _ _ := rfl
  old x hx := by
    have hx : DatFile.WFAt v x := hx
    exact hx.civs
  wf x hx l := by
    have hx : DatFile.WFAt v x := hx
    constructor
    · intro (k : DatFile.WFAt v { x with civs := l })
      skip
      exact k.civs
    · intro h
      exact { hx with civs := h }
  splits x hx := by
    have hx : DatFile.WFAt v x := hx
    show Splits _ (fun y => DatFile.layoutAt v { x with civs := y }) _
    simp only [DatFile.layout_eq]
    repeat (first | (with_reducible apply Splits.head; exact Splits.here; done) | with_reducible apply Splits.tail | refine Splits.tailP (fun y h => sameLength_countU8 h) ?_ | refine Splits.tailP (fun y h => sameLength_countI16 h) ?_ | refine Splits.tailP (fun y h => sameLength_countI32 h) ?_)

theorem DatFile.countedList_techs (v : Version) : ListField.CountedOK .file v 32767 ⟨"techs", Genie.Tech, fun (x : Genie.DatFile) => x.techs, fun x l => { x with techs := l }, Tech.layout v, Tech.WF v⟩ where
  self _ := rfl
  get_set _ _ := rfl
  old x hx := by
    have hx : DatFile.WFAt v x := hx
    exact hx.techs
  wf x hx l := by
    have hx : DatFile.WFAt v x := hx
    constructor
    · intro (k : DatFile.WFAt v { x with techs := l })
      skip
      exact k.techs
    · intro h
      exact { hx with techs := h }
  splits x hx := by
    have hx : DatFile.WFAt v x := hx
    show Splits _ (fun y => DatFile.layoutAt v { x with techs := y }) _
    simp only [DatFile.layout_eq]
    repeat (first | (with_reducible apply Splits.head; exact Splits.here; done) | with_reducible apply Splits.tail | refine Splits.tailP (fun y h => sameLength_countU8 h) ?_ | refine Splits.tailP (fun y h => sameLength_countI16 h) ?_ | refine Splits.tailP (fun y h => sameLength_countI32 h) ?_)

theorem DatFile.countedLists (v : Version) : ∀ f ∈ Node.countedLists v .file, ListField.CountedOK .file v f.1 f.2 :=
  forall_cons (DatFile.countedList_player_colours v) (forall_cons (DatFile.countedList_sounds v) (forall_cons (DatFile.countedList_effects v) (forall_cons (DatFile.countedList_unit_headers v) (forall_cons (DatFile.countedList_civs v) (forall_cons (DatFile.countedList_techs v) (forall_nil))))))

theorem Node.countedLists_ok (v : Version) (n : Node) : ∀ f ∈ n.countedLists v, ListField.CountedOK n v f.1 f.2 := by
  match n with
  | .record .Effect => exact Effect.countedLists v
  | .record .Sound => exact Sound.countedLists v
  | .record .Graphic => exact Graphic.countedLists v
  | .record .Tech => exact Tech.countedLists v
  | .record .TechTreeAge => exact TechTreeAge.countedLists v
  | .record .BuildingConnection => exact BuildingConnection.countedLists v
  | .record .UnitConnection => exact UnitConnection.countedLists v
  | .record .ResearchConnection => exact ResearchConnection.countedLists v
  | .record .TechTree => exact TechTree.countedLists v
  | .record .Bird => exact Bird.countedLists v
  | .record .Type50 => exact Type50.countedLists v
  | .record .Creatable => exact Creatable.countedLists v
  | .record .Unit => exact Unit.countedLists v
  | .record .Civ => exact Civ.countedLists v
  | .file => exact DatFile.countedLists v
  | .record .EffectCommand => exact forall_nil
  | .record .SoundItem => exact forall_nil
  | .record .PlayerColour => exact forall_nil
  | .record .GraphicDelta => exact forall_nil
  | .record .GraphicAngleSound => exact forall_nil
  | .record .TerrainPassGraphic => exact forall_nil
  | .record .FrameData => exact forall_nil
  | .record .Terrain => exact forall_nil
  | .record .TileSize => exact forall_nil
  | .record .TerrainBlock => exact forall_nil
  | .record .MapUnit => exact forall_nil
  | .record .MapTerrain => exact forall_nil
  | .record .MapLand => exact forall_nil
  | .record .MapElevation => exact forall_nil
  | .record .MapInfo => exact forall_nil
  | .record .RandomMaps => exact forall_nil
  | .record .ResearchResourceCost => exact forall_nil
  | .record .ResearchLocation => exact forall_nil
  | .record .Common => exact forall_nil
  | .record .ResourceStorage => exact forall_nil
  | .record .DamageGraphic => exact forall_nil
  | .record .DeadFish => exact forall_nil
  | .record .Task => exact forall_nil
  | .record .AttackOrArmor => exact forall_nil
  | .record .Projectile => exact forall_nil
  | .record .ResourceCost => exact forall_nil
  | .record .TrainLocation => exact forall_nil
  | .record .BuildingAnnex => exact forall_nil
  | .record .Building => exact forall_nil
  | .record .UnitHeaders => exact forall_nil
  | .record (.TerrainRestriction k) => exact forall_nil

end Genie
