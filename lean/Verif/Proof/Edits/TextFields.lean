import Verif.Proof.Edits.FieldDefs
/-! # Text fields (generated by `tools/gen_edit_fields.py`) -/

namespace Genie
open Layout
set_option linter.unusedVariables false
set_option linter.unusedSimpArgs false

theorem Effect.textField_name (v : Version) : TextField.OK (.record .Effect) v ⟨"name", fun (x : Genie.Effect) => x.name, fun x y => { x with name := y }⟩ where
  self _ := rfl
  get_set _ _ := rfl
  wf x hx y hy := by
    have hx : Effect.WF v x := hx
    exact { hx with name := hy }
  splits x hx := by
    have hx : Effect.WF v x := hx
    show Splits _ (fun y => Effect.layout v { x with name := y }) _
    simp only [Effect.layout]
    walk Splits.here

theorem Effect.textFields (v : Version) : ∀ f ∈ Node.textFields v (.record .Effect), TextField.OK (.record .Effect) v f :=
  forall_cons (Effect.textField_name v) (forall_nil)

theorem SoundItem.textField_filename (v : Version) : TextField.OK (.record .SoundItem) v ⟨"filename", fun (x : Genie.SoundItem) => x.filename, fun x y => { x with filename := y }⟩ where
  self _ := rfl
  get_set _ _ := rfl
  wf x hx y hy := by
    have hx : SoundItem.WF v x := hx
    exact { hx with filename := hy }
  splits x hx := by
    have hx : SoundItem.WF v x := hx
    show Splits _ (fun y => SoundItem.layout v { x with filename := y }) _
    simp only [SoundItem.layout]
    walk Splits.here

theorem SoundItem.textFields (v : Version) : ∀ f ∈ Node.textFields v (.record .SoundItem), TextField.OK (.record .SoundItem) v f :=
  forall_cons (SoundItem.textField_filename v) (forall_nil)

theorem Graphic.textField_name (v : Version) : TextField.OK (.record .Graphic) v ⟨"name", fun (x : Genie.Graphic) => x.name, fun x y => { x with name := y }⟩ where
  self _ := rfl
  get_set _ _ := rfl
  wf x hx y hy := by
    have hx : Graphic.WF v x := hx
    exact { hx with name := hy }
  splits x hx := by
    have hx : Graphic.WF v x := hx
    show Splits _ (fun y => Graphic.layout v { x with name := y }) _
    simp only [Graphic.layout]
    walk Splits.here

theorem Graphic.textField_file_name (v : Version) : TextField.OK (.record .Graphic) v ⟨"file_name", fun (x : Genie.Graphic) => x.file_name, fun x y => { x with file_name := y }⟩ where
  self _ := rfl
  get_set _ _ := rfl
  wf x hx y hy := by
    have hx : Graphic.WF v x := hx
    exact { hx with file_name := hy }
  splits x hx := by
    have hx : Graphic.WF v x := hx
    show Splits _ (fun y => Graphic.layout v { x with file_name := y }) _
    simp only [Graphic.layout]
    walk Splits.here

theorem Graphic.textField_particle_effect_name (v : Version) : TextField.OK (.record .Graphic) v ⟨"particle_effect_name", fun (x : Genie.Graphic) => x.particle_effect_name, fun x y => { x with particle_effect_name := y }⟩ where
  self _ := rfl
  get_set _ _ := rfl
  wf x hx y hy := by
    have hx : Graphic.WF v x := hx
    exact { hx with particle_effect_name := hy }
  splits x hx := by
    have hx : Graphic.WF v x := hx
    show Splits _ (fun y => Graphic.layout v { x with particle_effect_name := y }) _
    simp only [Graphic.layout]
    walk Splits.here

theorem Graphic.textFields (v : Version) : ∀ f ∈ Node.textFields v (.record .Graphic), TextField.OK (.record .Graphic) v f :=
  forall_cons (Graphic.textField_name v) (forall_cons (Graphic.textField_file_name v) (forall_cons (Graphic.textField_particle_effect_name v) (forall_nil)))

theorem Terrain.textField_name (v : Version) : TextField.OK (.record .Terrain) v ⟨"name", fun (x : Genie.Terrain) => x.name, fun x y => { x with name := y }⟩ where
  self _ := rfl
  get_set _ _ := rfl
  wf x hx y hy := by
    have hx : Terrain.WF v x := hx
    exact { hx with name := hy }
  splits x hx := by
    have hx : Terrain.WF v x := hx
    show Splits _ (fun y => Terrain.layout v { x with name := y }) _
    simp only [Terrain.layout]
    walk Splits.here

theorem Terrain.textField_name_2 (v : Version) : TextField.OK (.record .Terrain) v ⟨"name_2", fun (x : Genie.Terrain) => x.name_2, fun x y => { x with name_2 := y }⟩ where
  self _ := rfl
  get_set _ _ := rfl
  wf x hx y hy := by
    have hx : Terrain.WF v x := hx
    exact { hx with name_2 := hy }
  splits x hx := by
    have hx : Terrain.WF v x := hx
    show Splits _ (fun y => Terrain.layout v { x with name_2 := y }) _
    simp only [Terrain.layout]
    walk Splits.here

theorem Terrain.textField_overlay_mask_name (v : Version) : TextField.OK (.record .Terrain) v ⟨"overlay_mask_name", fun (x : Genie.Terrain) => x.overlay_mask_name, fun x y => { x with overlay_mask_name := y }⟩ where
  self _ := rfl
  get_set _ _ := rfl
  wf x hx y hy := by
    have hx : Terrain.WF v x := hx
    exact { hx with overlay_mask_name := hy }
  splits x hx := by
    have hx : Terrain.WF v x := hx
    show Splits _ (fun y => Terrain.layout v { x with overlay_mask_name := y }) _
    simp only [Terrain.layout]
    walk Splits.here

theorem Terrain.textFields (v : Version) : ∀ f ∈ Node.textFields v (.record .Terrain), TextField.OK (.record .Terrain) v f :=
  forall_cons (Terrain.textField_name v) (forall_cons (Terrain.textField_name_2 v) (forall_cons (Terrain.textField_overlay_mask_name v) (forall_nil)))

theorem Tech.textField_name (v : Version) : TextField.OK (.record .Tech) v ⟨"name", fun (x : Genie.Tech) => x.name, fun x y => { x with name := y }⟩ where
  self _ := rfl
  get_set _ _ := rfl
  wf x hx y hy := by
    have hx : Tech.WF v x := hx
    exact { hx with name := hy }
  splits x hx := by
    have hx : Tech.WF v x := hx
    show Splits _ (fun y => Tech.layout v { x with name := y }) _
    simp only [Tech.layout, Tech.location84]
    split
    · walk Splits.here
    · walk Splits.here

theorem Tech.textFields (v : Version) : ∀ f ∈ Node.textFields v (.record .Tech), TextField.OK (.record .Tech) v f :=
  forall_cons (Tech.textField_name v) (forall_nil)

theorem Unit.textField_name (v : Version) : TextField.OK (.record .Unit) v ⟨"name", fun (x : Genie.Unit) => x.name, fun x y => { x with name := y }⟩ where
  self _ := rfl
  get_set _ _ := rfl
  wf x hx y hy := by
    have hx : Unit.WF v x := hx
    exact { hx with name := hy }
  splits x hx := by
    have hx : Unit.WF v x := hx
    show Splits _ (fun y => Unit.layout v { x with name := y }) _
    simp only [Unit.layout_eq]
    walk Splits.here

theorem Unit.textFields (v : Version) : ∀ f ∈ Node.textFields v (.record .Unit), TextField.OK (.record .Unit) v f :=
  forall_cons (Unit.textField_name v) (forall_nil)

theorem Civ.textField_name (v : Version) : TextField.OK (.record .Civ) v ⟨"name", fun (x : Genie.Civ) => x.name, fun x y => { x with name := y }⟩ where
  self _ := rfl
  get_set _ _ := rfl
  wf x hx y hy := by
    have hx : Civ.WF v x := hx
    exact { hx with name := hy }
  splits x hx := by
    have hx : Civ.WF v x := hx
    show Splits _ (fun y => Civ.layout v { x with name := y }) _
    simp only [Civ.layout]
    walk Splits.here

theorem Civ.textFields (v : Version) : ∀ f ∈ Node.textFields v (.record .Civ), TextField.OK (.record .Civ) v f :=
  forall_cons (Civ.textField_name v) (forall_nil)

theorem Node.textFields_ok (v : Version) (n : Node) : ∀ f ∈ n.textFields v, TextField.OK n v f := by
  match n with
  | .record .Effect => exact Effect.textFields v
  | .record .SoundItem => exact SoundItem.textFields v
  | .record .Graphic => exact Graphic.textFields v
  | .record .Terrain => exact Terrain.textFields v
  | .record .Tech => exact Tech.textFields v
  | .record .Unit => exact Unit.textFields v
  | .record .Civ => exact Civ.textFields v
  | .record .EffectCommand => exact forall_nil
  | .record .Sound => exact forall_nil
  | .record .PlayerColour => exact forall_nil
  | .record .GraphicDelta => exact forall_nil
  | .record .GraphicAngleSound => exact forall_nil
  | .record .TerrainPassGraphic => exact forall_nil
  | .record .FrameData => exact forall_nil
  | .record .TileSize => exact forall_nil
  | .record .TerrainBlock => exact forall_nil
  | .record .MapUnit => exact forall_nil
  | .record .MapTerrain => exact forall_nil
  | .record .MapLand => exact forall_nil
  | .record .MapElevation => exact forall_nil
  | .record .MapInfo => exact forall_nil
  | .record .RandomMaps => exact forall_nil
  | .record .ResearchResourceCost => exact forall_nil
  | .record .ResearchLocation => exact forall_nil
  | .record .Common => exact forall_nil
  | .record .TechTreeAge => exact forall_nil
  | .record .BuildingConnection => exact forall_nil
  | .record .UnitConnection => exact forall_nil
  | .record .ResearchConnection => exact forall_nil
  | .record .TechTree => exact forall_nil
  | .record .ResourceStorage => exact forall_nil
  | .record .DamageGraphic => exact forall_nil
  | .record .DeadFish => exact forall_nil
  | .record .Task => exact forall_nil
  | .record .Bird => exact forall_nil
  | .record .AttackOrArmor => exact forall_nil
  | .record .Type50 => exact forall_nil
  | .record .Projectile => exact forall_nil
  | .record .ResourceCost => exact forall_nil
  | .record .TrainLocation => exact forall_nil
  | .record .Creatable => exact forall_nil
  | .record .BuildingAnnex => exact forall_nil
  | .record .Building => exact forall_nil
  | .record .UnitHeaders => exact forall_nil
  | .record (.TerrainRestriction k) => exact forall_nil
  | .file => exact forall_nil

end Genie
