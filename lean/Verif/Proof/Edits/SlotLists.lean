import Verif.Proof.Edits.FieldDefs
/-! # Lists with empty slots (generated by `tools/gen_edit_fields.py`) -/

namespace Genie
open Layout
set_option linter.unusedVariables false
set_option linter.unusedSimpArgs false

theorem Civ.slotList_units (v : Version) : ListField.SlotsOK (.record .Civ) v 32767 ⟨"units", (Option Genie.Unit), fun (x : Genie.Civ) => x.units, fun x l => { x with units := l }, fun o => eachPresent (Unit.layout v) [o], IfSome (Unit.WF v)⟩ where
  self _ := rfl
  get_set _ _ := rfl
  old x hx := by
    have hx : Civ.WF v x := hx
    exact hx.units
  wf x hx l := by
    have hx : Civ.WF v x := hx
    constructor
    · intro (k : Civ.WF v { x with units := l })
      exact k.units
    · intro h
      exact { hx with units := h }

theorem Civ.slotLists (v : Version) : ∀ f ∈ Node.slotLists v (.record .Civ), ListField.SlotsOK (.record .Civ) v f.1 f.2 :=
  forall_cons (Civ.slotList_units v) (forall_nil)

theorem DatFile.slotList_graphics (v : Version) : ListField.SlotsOK .file v 32767 ⟨"graphics", (Option Genie.Graphic), fun (x : Genie.DatFile) => x.graphics, fun x l => { x with graphics := l }, fun o => eachPresent (Graphic.layout v) [o], IfSome (Graphic.WF v)⟩ where
  self _ := rfl
  get_set _ _ := rfl
  old x hx := by
    have hx : DatFile.WFAt v x := hx
    exact hx.graphics
  wf x hx l := by
    have hx : DatFile.WFAt v x := hx
    constructor
    · intro (k : DatFile.WFAt v { x with graphics := l })
      exact k.graphics
    · intro h
      exact { hx with graphics := h }

theorem DatFile.slotLists (v : Version) : ∀ f ∈ Node.slotLists v .file, ListField.SlotsOK .file v f.1 f.2 :=
  forall_cons (DatFile.slotList_graphics v) (forall_nil)

theorem Node.slotLists_ok (v : Version) (n : Node) : ∀ f ∈ n.slotLists v, ListField.SlotsOK n v f.1 f.2 := by
  match n with
  | .record .Civ => exact Civ.slotLists v
  | .file => exact DatFile.slotLists v
  | .record .EffectCommand => exact forall_nil
  | .record .Effect => exact forall_nil
  | .record .SoundItem => exact forall_nil
  | .record .Sound => exact forall_nil
  | .record .PlayerColour => exact forall_nil
  | .record .GraphicDelta => exact forall_nil
  | .record .GraphicAngleSound => exact forall_nil
  | .record .Graphic => exact forall_nil
  | .record .TerrainPassGraphic => exact forall_nil
  | .record .FrameData => exact forall_nil
  | .record .Terrain => exact forall_nil
  | .record .TileSize => exact forall_nil
  | .record .TerrainBlock => exact forall_nil
  | .record .MapUnit => exact forall_nil
  | .record .MapTerrain => exact forall_nil
  | .record .MapLand => exact forall_nil
  | .record .MapElevation => exact forall_nil
  | .record .MapInfo => exact forall_nil
  | .record .RandomMaps => exact forall_nil
  | .record .ResearchResourceCost => exact forall_nil
  | .record .ResearchLocation => exact forall_nil
  | .record .Tech => exact forall_nil
  | .record .Common => exact forall_nil
  | .record .TechTreeAge => exact forall_nil
  | .record .BuildingConnection => exact forall_nil
  | .record .UnitConnection => exact forall_nil
  | .record .ResearchConnection => exact forall_nil
  | .record .TechTree => exact forall_nil
  | .record .ResourceStorage => exact forall_nil
  | .record .DamageGraphic => exact forall_nil
  | .record .DeadFish => exact forall_nil
  | .record .Task => exact forall_nil
  | .record .Bird => exact forall_nil
  | .record .AttackOrArmor => exact forall_nil
  | .record .Type50 => exact forall_nil
  | .record .Projectile => exact forall_nil
  | .record .ResourceCost => exact forall_nil
  | .record .TrainLocation => exact forall_nil
  | .record .Creatable => exact forall_nil
  | .record .BuildingAnnex => exact forall_nil
  | .record .Building => exact forall_nil
  | .record .Unit => exact forall_nil
  | .record .UnitHeaders => exact forall_nil
  | .record (.TerrainRestriction k) => exact forall_nil

end Genie
