import Verif.Proof.Edits.FieldDefs
/-! # Integer fields (generated by `tools/gen_edit_fields.py`) -/

namespace Genie
open Layout
set_option linter.unusedVariables false
set_option linter.unusedSimpArgs false

theorem EffectCommand.intField_type (v : Version) : IntField.OK (.record .EffectCommand) v ⟨"type", 1, false, fun (x : Genie.EffectCommand) => x.type, fun x y => { x with type := y }⟩ where
  self _ := rfl
  get_set _ _ := rfl
  fits x hx := by
    have hx : EffectCommand.WF v x := hx
    exact fits_u8.2 hx.type
  wf x hx y hy := by
    have hx : EffectCommand.WF v x := hx
    exact { hx with type := fits_u8.1 hy }
  splits x hx := by
    have hx : EffectCommand.WF v x := hx
    refine ⟨fun i => .int 1 false i, .int _ _, ?_⟩
    show Splits _ (fun y => EffectCommand.layout v { x with type := y }) _
    simp only [EffectCommand.layout]
    walk Splits.here

theorem EffectCommand.intField_a (v : Version) : IntField.OK (.record .EffectCommand) v ⟨"a", 2, true, fun (x : Genie.EffectCommand) => x.a, fun x y => { x with a := y }⟩ where
  self _ := rfl
  get_set _ _ := rfl
  fits x hx := by
    have hx : EffectCommand.WF v x := hx
    exact fits_i16.2 hx.a
  wf x hx y hy := by
    have hx : EffectCommand.WF v x := hx
    exact { hx with a := fits_i16.1 hy }
  splits x hx := by
    have hx : EffectCommand.WF v x := hx
    refine ⟨fun i => .int 2 true i, .int _ _, ?_⟩
    show Splits _ (fun y => EffectCommand.layout v { x with a := y }) _
    simp only [EffectCommand.layout]
    walk Splits.here

theorem EffectCommand.intField_b (v : Version) : IntField.OK (.record .EffectCommand) v ⟨"b", 2, true, fun (x : Genie.EffectCommand) => x.b, fun x y => { x with b := y }⟩ where
  self _ := rfl
  get_set _ _ := rfl
  fits x hx := by
    have hx : EffectCommand.WF v x := hx
    exact fits_i16.2 hx.b
  wf x hx y hy := by
    have hx : EffectCommand.WF v x := hx
    exact { hx with b := fits_i16.1 hy }
  splits x hx := by
    have hx : EffectCommand.WF v x := hx
    refine ⟨fun i => .int 2 true i, .int _ _, ?_⟩
    show Splits _ (fun y => EffectCommand.layout v { x with b := y }) _
    simp only [EffectCommand.layout]
    walk Splits.here

theorem EffectCommand.intField_c (v : Version) : IntField.OK (.record .EffectCommand) v ⟨"c", 2, true, fun (x : Genie.EffectCommand) => x.c, fun x y => { x with c := y }⟩ where
  self _ := rfl
  get_set _ _ := rfl
  fits x hx := by
    have hx : EffectCommand.WF v x := hx
    exact fits_i16.2 hx.c
  wf x hx y hy := by
    have hx : EffectCommand.WF v x := hx
    exact { hx with c := fits_i16.1 hy }
  splits x hx := by
    have hx : EffectCommand.WF v x := hx
    refine ⟨fun i => .int 2 true i, .int _ _, ?_⟩
    show Splits _ (fun y => EffectCommand.layout v { x with c := y }) _
    simp only [EffectCommand.layout]
    walk Splits.here

theorem EffectCommand.intFields (v : Version) : ∀ f ∈ Node.intFields v (.record .EffectCommand), IntField.OK (.record .EffectCommand) v f :=
  forall_cons (EffectCommand.intField_type v) (forall_cons (EffectCommand.intField_a v) (forall_cons (EffectCommand.intField_b v) (forall_cons (EffectCommand.intField_c v) (forall_nil))))

theorem SoundItem.intField_resource_id (v : Version) : IntField.OK (.record .SoundItem) v ⟨"resource_id", 4, true, fun (x : Genie.SoundItem) => x.resource_id, fun x y => { x with resource_id := y }⟩ where
  self _ := rfl
  get_set _ _ := rfl
  fits x hx := by
    have hx : SoundItem.WF v x := hx
    exact fits_i32.2 hx.resource_id
  wf x hx y hy := by
    have hx : SoundItem.WF v x := hx
    exact { hx with resource_id := fits_i32.1 hy }
  splits x hx := by
    have hx : SoundItem.WF v x := hx
    refine ⟨fun i => .int 4 true i, .int _ _, ?_⟩
    show Splits _ (fun y => SoundItem.layout v { x with resource_id := y }) _
    simp only [SoundItem.layout]
    walk Splits.here

theorem SoundItem.intField_probability (v : Version) : IntField.OK (.record .SoundItem) v ⟨"probability", 2, true, fun (x : Genie.SoundItem) => x.probability, fun x y => { x with probability := y }⟩ where
  self _ := rfl
  get_set _ _ := rfl
  fits x hx := by
    have hx : SoundItem.WF v x := hx
    exact fits_i16.2 hx.probability
  wf x hx y hy := by
    have hx : SoundItem.WF v x := hx
    exact { hx with probability := fits_i16.1 hy }
  splits x hx := by
    have hx : SoundItem.WF v x := hx
    refine ⟨fun i => .int 2 true i, .int _ _, ?_⟩
    show Splits _ (fun y => SoundItem.layout v { x with probability := y }) _
    simp only [SoundItem.layout]
    walk Splits.here

theorem SoundItem.intField_civilization (v : Version) : IntField.OK (.record .SoundItem) v ⟨"civilization", 2, true, fun (x : Genie.SoundItem) => x.civilization, fun x y => { x with civilization := y }⟩ where
  self _ := rfl
  get_set _ _ := rfl
  fits x hx := by
    have hx : SoundItem.WF v x := hx
    exact fits_i16.2 hx.civilization
  wf x hx y hy := by
    have hx : SoundItem.WF v x := hx
    exact { hx with civilization := fits_i16.1 hy }
  splits x hx := by
    have hx : SoundItem.WF v x := hx
    refine ⟨fun i => .int 2 true i, .int _ _, ?_⟩
    show Splits _ (fun y => SoundItem.layout v { x with civilization := y }) _
    simp only [SoundItem.layout]
    walk Splits.here

theorem SoundItem.intField_icon_set (v : Version) : IntField.OK (.record .SoundItem) v ⟨"icon_set", 2, true, fun (x : Genie.SoundItem) => x.icon_set, fun x y => { x with icon_set := y }⟩ where
  self _ := rfl
  get_set _ _ := rfl
  fits x hx := by
    have hx : SoundItem.WF v x := hx
    exact fits_i16.2 hx.icon_set
  wf x hx y hy := by
    have hx : SoundItem.WF v x := hx
    exact { hx with icon_set := fits_i16.1 hy }
  splits x hx := by
    have hx : SoundItem.WF v x := hx
    refine ⟨fun i => .int 2 true i, .int _ _, ?_⟩
    show Splits _ (fun y => SoundItem.layout v { x with icon_set := y }) _
    simp only [SoundItem.layout]
    walk Splits.here

theorem SoundItem.intFields (v : Version) : ∀ f ∈ Node.intFields v (.record .SoundItem), IntField.OK (.record .SoundItem) v f :=
  forall_cons (SoundItem.intField_resource_id v) (forall_cons (SoundItem.intField_probability v) (forall_cons (SoundItem.intField_civilization v) (forall_cons (SoundItem.intField_icon_set v) (forall_nil))))

theorem Sound.intField_id (v : Version) : IntField.OK (.record .Sound) v ⟨"id", 2, true, fun (x : Genie.Sound) => x.id, fun x y => { x with id := y }⟩ where
  self _ := rfl
  get_set _ _ := rfl
  fits x hx := by
    have hx : Sound.WF v x := hx
    exact fits_i16.2 hx.id
  wf x hx y hy := by
    have hx : Sound.WF v x := hx
    exact { hx with id := fits_i16.1 hy }
  splits x hx := by
    have hx : Sound.WF v x := hx
    refine ⟨fun i => .int 2 true i, .int _ _, ?_⟩
    show Splits _ (fun y => Sound.layout v { x with id := y }) _
    simp only [Sound.layout]
    walk Splits.here

theorem Sound.intField_play_delay (v : Version) : IntField.OK (.record .Sound) v ⟨"play_delay", 2, true, fun (x : Genie.Sound) => x.play_delay, fun x y => { x with play_delay := y }⟩ where
  self _ := rfl
  get_set _ _ := rfl
  fits x hx := by
    have hx : Sound.WF v x := hx
    exact fits_i16.2 hx.play_delay
  wf x hx y hy := by
    have hx : Sound.WF v x := hx
    exact { hx with play_delay := fits_i16.1 hy }
  splits x hx := by
    have hx : Sound.WF v x := hx
    refine ⟨fun i => .int 2 true i, .int _ _, ?_⟩
    show Splits _ (fun y => Sound.layout v { x with play_delay := y }) _
    simp only [Sound.layout]
    walk Splits.here

theorem Sound.intField_cache_time (v : Version) : IntField.OK (.record .Sound) v ⟨"cache_time", 4, true, fun (x : Genie.Sound) => x.cache_time, fun x y => { x with cache_time := y }⟩ where
  self _ := rfl
  get_set _ _ := rfl
  fits x hx := by
    have hx : Sound.WF v x := hx
    exact fits_i32.2 hx.cache_time
  wf x hx y hy := by
    have hx : Sound.WF v x := hx
    exact { hx with cache_time := fits_i32.1 hy }
  splits x hx := by
    have hx : Sound.WF v x := hx
    refine ⟨fun i => .int 4 true i, .int _ _, ?_⟩
    show Splits _ (fun y => Sound.layout v { x with cache_time := y }) _
    simp only [Sound.layout]
    walk Splits.here

theorem Sound.intField_total_probability (v : Version) : IntField.OK (.record .Sound) v ⟨"total_probability", 2, true, fun (x : Genie.Sound) => x.total_probability, fun x y => { x with total_probability := y }⟩ where
  self _ := rfl
  get_set _ _ := rfl
  fits x hx := by
    have hx : Sound.WF v x := hx
    exact fits_i16.2 hx.total_probability
  wf x hx y hy := by
    have hx : Sound.WF v x := hx
    exact { hx with total_probability := fits_i16.1 hy }
  splits x hx := by
    have hx : Sound.WF v x := hx
    refine ⟨fun i => .int 2 true i, .int _ _, ?_⟩
    show Splits _ (fun y => Sound.layout v { x with total_probability := y }) _
    simp only [Sound.layout]
    walk Splits.here

theorem Sound.intFields (v : Version) : ∀ f ∈ Node.intFields v (.record .Sound), IntField.OK (.record .Sound) v f :=
  forall_cons (Sound.intField_id v) (forall_cons (Sound.intField_play_delay v) (forall_cons (Sound.intField_cache_time v) (forall_cons (Sound.intField_total_probability v) (forall_nil))))

theorem PlayerColour.intField_id (v : Version) : IntField.OK (.record .PlayerColour) v ⟨"id", 4, true, fun (x : Genie.PlayerColour) => x.id, fun x y => { x with id := y }⟩ where
  self _ := rfl
  get_set _ _ := rfl
  fits x hx := by
    have hx : PlayerColour.WF v x := hx
    exact fits_i32.2 hx.id
  wf x hx y hy := by
    have hx : PlayerColour.WF v x := hx
    exact { hx with id := fits_i32.1 hy }
  splits x hx := by
    have hx : PlayerColour.WF v x := hx
    refine ⟨fun i => .int 4 true i, .int _ _, ?_⟩
    show Splits _ (fun y => PlayerColour.layout v { x with id := y }) _
    simp only [PlayerColour.layout]
    walk Splits.here

theorem PlayerColour.intField_player_color_base (v : Version) : IntField.OK (.record .PlayerColour) v ⟨"player_color_base", 4, true, fun (x : Genie.PlayerColour) => x.player_color_base, fun x y => { x with player_color_base := y }⟩ where
  self _ := rfl
  get_set _ _ := rfl
  fits x hx := by
    have hx : PlayerColour.WF v x := hx
    exact fits_i32.2 hx.player_color_base
  wf x hx y hy := by
    have hx : PlayerColour.WF v x := hx
    exact { hx with player_color_base := fits_i32.1 hy }
  splits x hx := by
    have hx : PlayerColour.WF v x := hx
    refine ⟨fun i => .int 4 true i, .int _ _, ?_⟩
    show Splits _ (fun y => PlayerColour.layout v { x with player_color_base := y }) _
    simp only [PlayerColour.layout]
    walk Splits.here

theorem PlayerColour.intField_unit_outline_color (v : Version) : IntField.OK (.record .PlayerColour) v ⟨"unit_outline_color", 4, true, fun (x : Genie.PlayerColour) => x.unit_outline_color, fun x y => { x with unit_outline_color := y }⟩ where
  self _ := rfl
  get_set _ _ := rfl
  fits x hx := by
    have hx : PlayerColour.WF v x := hx
    exact fits_i32.2 hx.unit_outline_color
  wf x hx y hy := by
    have hx : PlayerColour.WF v x := hx
    exact { hx with unit_outline_color := fits_i32.1 hy }
  splits x hx := by
    have hx : PlayerColour.WF v x := hx
    refine ⟨fun i => .int 4 true i, .int _ _, ?_⟩
    show Splits _ (fun y => PlayerColour.layout v { x with unit_outline_color := y }) _
    simp only [PlayerColour.layout]
    walk Splits.here

theorem PlayerColour.intField_unit_selection_color_1 (v : Version) : IntField.OK (.record .PlayerColour) v ⟨"unit_selection_color_1", 4, true, fun (x : Genie.PlayerColour) => x.unit_selection_color_1, fun x y => { x with unit_selection_color_1 := y }⟩ where
  self _ := rfl
  get_set _ _ := rfl
  fits x hx := by
    have hx : PlayerColour.WF v x := hx
    exact fits_i32.2 hx.unit_selection_color_1
  wf x hx y hy := by
    have hx : PlayerColour.WF v x := hx
    exact { hx with unit_selection_color_1 := fits_i32.1 hy }
  splits x hx := by
    have hx : PlayerColour.WF v x := hx
    refine ⟨fun i => .int 4 true i, .int _ _, ?_⟩
    show Splits _ (fun y => PlayerColour.layout v { x with unit_selection_color_1 := y }) _
    simp only [PlayerColour.layout]
    walk Splits.here

theorem PlayerColour.intField_unit_selection_color_2 (v : Version) : IntField.OK (.record .PlayerColour) v ⟨"unit_selection_color_2", 4, true, fun (x : Genie.PlayerColour) => x.unit_selection_color_2, fun x y => { x with unit_selection_color_2 := y }⟩ where
  self _ := rfl
  get_set _ _ := rfl
  fits x hx := by
    have hx : PlayerColour.WF v x := hx
    exact fits_i32.2 hx.unit_selection_color_2
  wf x hx y hy := by
    have hx : PlayerColour.WF v x := hx
    exact { hx with unit_selection_color_2 := fits_i32.1 hy }
  splits x hx := by
    have hx : PlayerColour.WF v x := hx
    refine ⟨fun i => .int 4 true i, .int _ _, ?_⟩
    show Splits _ (fun y => PlayerColour.layout v { x with unit_selection_color_2 := y }) _
    simp only [PlayerColour.layout]
    walk Splits.here

theorem PlayerColour.intField_minimap_color (v : Version) : IntField.OK (.record .PlayerColour) v ⟨"minimap_color", 4, true, fun (x : Genie.PlayerColour) => x.minimap_color, fun x y => { x with minimap_color := y }⟩ where
  self _ := rfl
  get_set _ _ := rfl
  fits x hx := by
    have hx : PlayerColour.WF v x := hx
    exact fits_i32.2 hx.minimap_color
  wf x hx y hy := by
    have hx : PlayerColour.WF v x := hx
    exact { hx with minimap_color := fits_i32.1 hy }
  splits x hx := by
    have hx : PlayerColour.WF v x := hx
    refine ⟨fun i => .int 4 true i, .int _ _, ?_⟩
    show Splits _ (fun y => PlayerColour.layout v { x with minimap_color := y }) _
    simp only [PlayerColour.layout]
    walk Splits.here

theorem PlayerColour.intField_minimap_color_2 (v : Version) : IntField.OK (.record .PlayerColour) v ⟨"minimap_color_2", 4, true, fun (x : Genie.PlayerColour) => x.minimap_color_2, fun x y => { x with minimap_color_2 := y }⟩ where
  self _ := rfl
  get_set _ _ := rfl
  fits x hx := by
    have hx : PlayerColour.WF v x := hx
    exact fits_i32.2 hx.minimap_color_2
  wf x hx y hy := by
    have hx : PlayerColour.WF v x := hx
    exact { hx with minimap_color_2 := fits_i32.1 hy }
  splits x hx := by
    have hx : PlayerColour.WF v x := hx
    refine ⟨fun i => .int 4 true i, .int _ _, ?_⟩
    show Splits _ (fun y => PlayerColour.layout v { x with minimap_color_2 := y }) _
    simp only [PlayerColour.layout]
    walk Splits.here

theorem PlayerColour.intField_minimap_color_3 (v : Version) : IntField.OK (.record .PlayerColour) v ⟨"minimap_color_3", 4, true, fun (x : Genie.PlayerColour) => x.minimap_color_3, fun x y => { x with minimap_color_3 := y }⟩ where
  self _ := rfl
  get_set _ _ := rfl
  fits x hx := by
    have hx : PlayerColour.WF v x := hx
    exact fits_i32.2 hx.minimap_color_3
  wf x hx y hy := by
    have hx : PlayerColour.WF v x := hx
    exact { hx with minimap_color_3 := fits_i32.1 hy }
  splits x hx := by
    have hx : PlayerColour.WF v x := hx
    refine ⟨fun i => .int 4 true i, .int _ _, ?_⟩
    show Splits _ (fun y => PlayerColour.layout v { x with minimap_color_3 := y }) _
    simp only [PlayerColour.layout]
    walk Splits.here

theorem PlayerColour.intField_statistics_text (v : Version) : IntField.OK (.record .PlayerColour) v ⟨"statistics_text", 4, true, fun (x : Genie.PlayerColour) => x.statistics_text, fun x y => { x with statistics_text := y }⟩ where
  self _ := rfl
  get_set _ _ := rfl
  fits x hx := by
    have hx : PlayerColour.WF v x := hx
    exact fits_i32.2 hx.statistics_text
  wf x hx y hy := by
    have hx : PlayerColour.WF v x := hx
    exact { hx with statistics_text := fits_i32.1 hy }
  splits x hx := by
    have hx : PlayerColour.WF v x := hx
    refine ⟨fun i => .int 4 true i, .int _ _, ?_⟩
    show Splits _ (fun y => PlayerColour.layout v { x with statistics_text := y }) _
    simp only [PlayerColour.layout]
    walk Splits.here

theorem PlayerColour.intFields (v : Version) : ∀ f ∈ Node.intFields v (.record .PlayerColour), IntField.OK (.record .PlayerColour) v f :=
  forall_cons (PlayerColour.intField_id v) (forall_cons (PlayerColour.intField_player_color_base v) (forall_cons (PlayerColour.intField_unit_outline_color v) (forall_cons (PlayerColour.intField_unit_selection_color_1 v) (forall_cons (PlayerColour.intField_unit_selection_color_2 v) (forall_cons (PlayerColour.intField_minimap_color v) (forall_cons (PlayerColour.intField_minimap_color_2 v) (forall_cons (PlayerColour.intField_minimap_color_3 v) (forall_cons (PlayerColour.intField_statistics_text v) (forall_nil)))))))))

theorem GraphicDelta.intField_graphic_id (v : Version) : IntField.OK (.record .GraphicDelta) v ⟨"graphic_id", 2, true, fun (x : Genie.GraphicDelta) => x.graphic_id, fun x y => { x with graphic_id := y }⟩ where
  self _ := rfl
  get_set _ _ := rfl
  fits x hx := by
    have hx : GraphicDelta.WF v x := hx
    exact fits_i16.2 hx.graphic_id
  wf x hx y hy := by
    have hx : GraphicDelta.WF v x := hx
    exact { hx with graphic_id := fits_i16.1 hy }
  splits x hx := by
    have hx : GraphicDelta.WF v x := hx
    refine ⟨fun i => .int 2 true i, .int _ _, ?_⟩
    show Splits _ (fun y => GraphicDelta.layout v { x with graphic_id := y }) _
    simp only [GraphicDelta.layout]
    walk Splits.here

theorem GraphicDelta.intField_padding_1 (v : Version) : IntField.OK (.record .GraphicDelta) v ⟨"padding_1", 2, true, fun (x : Genie.GraphicDelta) => x.padding_1, fun x y => { x with padding_1 := y }⟩ where
  self _ := rfl
  get_set _ _ := rfl
  fits x hx := by
    have hx : GraphicDelta.WF v x := hx
    exact fits_i16.2 hx.padding_1
  wf x hx y hy := by
    have hx : GraphicDelta.WF v x := hx
    exact { hx with padding_1 := fits_i16.1 hy }
  splits x hx := by
    have hx : GraphicDelta.WF v x := hx
    refine ⟨fun i => .int 2 true i, .int _ _, ?_⟩
    show Splits _ (fun y => GraphicDelta.layout v { x with padding_1 := y }) _
    simp only [GraphicDelta.layout]
    walk Splits.here

theorem GraphicDelta.intField_sprite_ptr (v : Version) : IntField.OK (.record .GraphicDelta) v ⟨"sprite_ptr", 4, true, fun (x : Genie.GraphicDelta) => x.sprite_ptr, fun x y => { x with sprite_ptr := y }⟩ where
  self _ := rfl
  get_set _ _ := rfl
  fits x hx := by
    have hx : GraphicDelta.WF v x := hx
    exact fits_i32.2 hx.sprite_ptr
  wf x hx y hy := by
    have hx : GraphicDelta.WF v x := hx
    exact { hx with sprite_ptr := fits_i32.1 hy }
  splits x hx := by
    have hx : GraphicDelta.WF v x := hx
    refine ⟨fun i => .int 4 true i, .int _ _, ?_⟩
    show Splits _ (fun y => GraphicDelta.layout v { x with sprite_ptr := y }) _
    simp only [GraphicDelta.layout]
    walk Splits.here

theorem GraphicDelta.intField_offset_x (v : Version) : IntField.OK (.record .GraphicDelta) v ⟨"offset_x", 2, true, fun (x : Genie.GraphicDelta) => x.offset_x, fun x y => { x with offset_x := y }⟩ where
  self _ := rfl
  get_set _ _ := rfl
  fits x hx := by
    have hx : GraphicDelta.WF v x := hx
    exact fits_i16.2 hx.offset_x
  wf x hx y hy := by
    have hx : GraphicDelta.WF v x := hx
    exact { hx with offset_x := fits_i16.1 hy }
  splits x hx := by
    have hx : GraphicDelta.WF v x := hx
    refine ⟨fun i => .int 2 true i, .int _ _, ?_⟩
    show Splits _ (fun y => GraphicDelta.layout v { x with offset_x := y }) _
    simp only [GraphicDelta.layout]
    walk Splits.here

theorem GraphicDelta.intField_offset_y (v : Version) : IntField.OK (.record .GraphicDelta) v ⟨"offset_y", 2, true, fun (x : Genie.GraphicDelta) => x.offset_y, fun x y => { x with offset_y := y }⟩ where
  self _ := rfl
  get_set _ _ := rfl
  fits x hx := by
    have hx : GraphicDelta.WF v x := hx
    exact fits_i16.2 hx.offset_y
  wf x hx y hy := by
    have hx : GraphicDelta.WF v x := hx
    exact { hx with offset_y := fits_i16.1 hy }
  splits x hx := by
    have hx : GraphicDelta.WF v x := hx
    refine ⟨fun i => .int 2 true i, .int _ _, ?_⟩
    show Splits _ (fun y => GraphicDelta.layout v { x with offset_y := y }) _
    simp only [GraphicDelta.layout]
    walk Splits.here

theorem GraphicDelta.intField_display_angle (v : Version) : IntField.OK (.record .GraphicDelta) v ⟨"display_angle", 2, true, fun (x : Genie.GraphicDelta) => x.display_angle, fun x y => { x with display_angle := y }⟩ where
  self _ := rfl
  get_set _ _ := rfl
  fits x hx := by
    have hx : GraphicDelta.WF v x := hx
    exact fits_i16.2 hx.display_angle
  wf x hx y hy := by
    have hx : GraphicDelta.WF v x := hx
    exact { hx with display_angle := fits_i16.1 hy }
  splits x hx := by
    have hx : GraphicDelta.WF v x := hx
    refine ⟨fun i => .int 2 true i, .int _ _, ?_⟩
    show Splits _ (fun y => GraphicDelta.layout v { x with display_angle := y }) _
    simp only [GraphicDelta.layout]
    walk Splits.here

theorem GraphicDelta.intField_padding_2 (v : Version) : IntField.OK (.record .GraphicDelta) v ⟨"padding_2", 2, true, fun (x : Genie.GraphicDelta) => x.padding_2, fun x y => { x with padding_2 := y }⟩ where
  self _ := rfl
  get_set _ _ := rfl
  fits x hx := by
    have hx : GraphicDelta.WF v x := hx
    exact fits_i16.2 hx.padding_2
  wf x hx y hy := by
    have hx : GraphicDelta.WF v x := hx
    exact { hx with padding_2 := fits_i16.1 hy }
  splits x hx := by
    have hx : GraphicDelta.WF v x := hx
    refine ⟨fun i => .int 2 true i, .int _ _, ?_⟩
    show Splits _ (fun y => GraphicDelta.layout v { x with padding_2 := y }) _
    simp only [GraphicDelta.layout]
    walk Splits.here

theorem GraphicDelta.intFields (v : Version) : ∀ f ∈ Node.intFields v (.record .GraphicDelta), IntField.OK (.record .GraphicDelta) v f :=
  forall_cons (GraphicDelta.intField_graphic_id v) (forall_cons (GraphicDelta.intField_padding_1 v) (forall_cons (GraphicDelta.intField_sprite_ptr v) (forall_cons (GraphicDelta.intField_offset_x v) (forall_cons (GraphicDelta.intField_offset_y v) (forall_cons (GraphicDelta.intField_display_angle v) (forall_cons (GraphicDelta.intField_padding_2 v) (forall_nil)))))))

theorem GraphicAngleSound.intField_frame_num (v : Version) : IntField.OK (.record .GraphicAngleSound) v ⟨"frame_num", 2, true, fun (x : Genie.GraphicAngleSound) => x.frame_num, fun x y => { x with frame_num := y }⟩ where
  self _ := rfl
  get_set _ _ := rfl
  fits x hx := by
    have hx : GraphicAngleSound.WF v x := hx
    exact fits_i16.2 hx.frame_num
  wf x hx y hy := by
    have hx : GraphicAngleSound.WF v x := hx
    exact { hx with frame_num := fits_i16.1 hy }
  splits x hx := by
    have hx : GraphicAngleSound.WF v x := hx
    refine ⟨fun i => .int 2 true i, .int _ _, ?_⟩
    show Splits _ (fun y => GraphicAngleSound.layout v { x with frame_num := y }) _
    simp only [GraphicAngleSound.layout]
    walk Splits.here

theorem GraphicAngleSound.intField_sound_id (v : Version) : IntField.OK (.record .GraphicAngleSound) v ⟨"sound_id", 2, true, fun (x : Genie.GraphicAngleSound) => x.sound_id, fun x y => { x with sound_id := y }⟩ where
  self _ := rfl
  get_set _ _ := rfl
  fits x hx := by
    have hx : GraphicAngleSound.WF v x := hx
    exact fits_i16.2 hx.sound_id
  wf x hx y hy := by
    have hx : GraphicAngleSound.WF v x := hx
    exact { hx with sound_id := fits_i16.1 hy }
  splits x hx := by
    have hx : GraphicAngleSound.WF v x := hx
    refine ⟨fun i => .int 2 true i, .int _ _, ?_⟩
    show Splits _ (fun y => GraphicAngleSound.layout v { x with sound_id := y }) _
    simp only [GraphicAngleSound.layout]
    walk Splits.here

theorem GraphicAngleSound.intField_wwise_sound_id (v : Version) : IntField.OK (.record .GraphicAngleSound) v ⟨"wwise_sound_id", 4, true, fun (x : Genie.GraphicAngleSound) => x.wwise_sound_id, fun x y => { x with wwise_sound_id := y }⟩ where
  self _ := rfl
  get_set _ _ := rfl
  fits x hx := by
    have hx : GraphicAngleSound.WF v x := hx
    exact fits_i32.2 hx.wwise_sound_id
  wf x hx y hy := by
    have hx : GraphicAngleSound.WF v x := hx
    exact { hx with wwise_sound_id := fits_i32.1 hy }
  splits x hx := by
    have hx : GraphicAngleSound.WF v x := hx
    refine ⟨fun i => .int 4 true i, .int _ _, ?_⟩
    show Splits _ (fun y => GraphicAngleSound.layout v { x with wwise_sound_id := y }) _
    simp only [GraphicAngleSound.layout]
    walk Splits.here

theorem GraphicAngleSound.intField_frame_num_2 (v : Version) : IntField.OK (.record .GraphicAngleSound) v ⟨"frame_num_2", 2, true, fun (x : Genie.GraphicAngleSound) => x.frame_num_2, fun x y => { x with frame_num_2 := y }⟩ where
  self _ := rfl
  get_set _ _ := rfl
  fits x hx := by
    have hx : GraphicAngleSound.WF v x := hx
    exact fits_i16.2 hx.frame_num_2
  wf x hx y hy := by
    have hx : GraphicAngleSound.WF v x := hx
    exact { hx with frame_num_2 := fits_i16.1 hy }
  splits x hx := by
    have hx : GraphicAngleSound.WF v x := hx
    refine ⟨fun i => .int 2 true i, .int _ _, ?_⟩
    show Splits _ (fun y => GraphicAngleSound.layout v { x with frame_num_2 := y }) _
    simp only [GraphicAngleSound.layout]
    walk Splits.here

theorem GraphicAngleSound.intField_sound_id_2 (v : Version) : IntField.OK (.record .GraphicAngleSound) v ⟨"sound_id_2", 2, true, fun (x : Genie.GraphicAngleSound) => x.sound_id_2, fun x y => { x with sound_id_2 := y }⟩ where
  self _ := rfl
  get_set _ _ := rfl
  fits x hx := by
    have hx : GraphicAngleSound.WF v x := hx
    exact fits_i16.2 hx.sound_id_2
  wf x hx y hy := by
    have hx : GraphicAngleSound.WF v x := hx
    exact { hx with sound_id_2 := fits_i16.1 hy }
  splits x hx := by
    have hx : GraphicAngleSound.WF v x := hx
    refine ⟨fun i => .int 2 true i, .int _ _, ?_⟩
    show Splits _ (fun y => GraphicAngleSound.layout v { x with sound_id_2 := y }) _
    simp only [GraphicAngleSound.layout]
    walk Splits.here

theorem GraphicAngleSound.intField_wwise_sound_id_2 (v : Version) : IntField.OK (.record .GraphicAngleSound) v ⟨"wwise_sound_id_2", 4, true, fun (x : Genie.GraphicAngleSound) => x.wwise_sound_id_2, fun x y => { x with wwise_sound_id_2 := y }⟩ where
  self _ := rfl
  get_set _ _ := rfl
  fits x hx := by
    have hx : GraphicAngleSound.WF v x := hx
    exact fits_i32.2 hx.wwise_sound_id_2
  wf x hx y hy := by
    have hx : GraphicAngleSound.WF v x := hx
    exact { hx with wwise_sound_id_2 := fits_i32.1 hy }
  splits x hx := by
    have hx : GraphicAngleSound.WF v x := hx
    refine ⟨fun i => .int 4 true i, .int _ _, ?_⟩
    show Splits _ (fun y => GraphicAngleSound.layout v { x with wwise_sound_id_2 := y }) _
    simp only [GraphicAngleSound.layout]
    walk Splits.here

theorem GraphicAngleSound.intField_frame_num_3 (v : Version) : IntField.OK (.record .GraphicAngleSound) v ⟨"frame_num_3", 2, true, fun (x : Genie.GraphicAngleSound) => x.frame_num_3, fun x y => { x with frame_num_3 := y }⟩ where
  self _ := rfl
  get_set _ _ := rfl
  fits x hx := by
    have hx : GraphicAngleSound.WF v x := hx
    exact fits_i16.2 hx.frame_num_3
  wf x hx y hy := by
    have hx : GraphicAngleSound.WF v x := hx
    exact { hx with frame_num_3 := fits_i16.1 hy }
  splits x hx := by
    have hx : GraphicAngleSound.WF v x := hx
    refine ⟨fun i => .int 2 true i, .int _ _, ?_⟩
    show Splits _ (fun y => GraphicAngleSound.layout v { x with frame_num_3 := y }) _
    simp only [GraphicAngleSound.layout]
    walk Splits.here

theorem GraphicAngleSound.intField_sound_id_3 (v : Version) : IntField.OK (.record .GraphicAngleSound) v ⟨"sound_id_3", 2, true, fun (x : Genie.GraphicAngleSound) => x.sound_id_3, fun x y => { x with sound_id_3 := y }⟩ where
  self _ := rfl
  get_set _ _ := rfl
  fits x hx := by
    have hx : GraphicAngleSound.WF v x := hx
    exact fits_i16.2 hx.sound_id_3
  wf x hx y hy := by
    have hx : GraphicAngleSound.WF v x := hx
    exact { hx with sound_id_3 := fits_i16.1 hy }
  splits x hx := by
    have hx : GraphicAngleSound.WF v x := hx
    refine ⟨fun i => .int 2 true i, .int _ _, ?_⟩
    show Splits _ (fun y => GraphicAngleSound.layout v { x with sound_id_3 := y }) _
    simp only [GraphicAngleSound.layout]
    walk Splits.here

theorem GraphicAngleSound.intField_wwise_sound_id_3 (v : Version) : IntField.OK (.record .GraphicAngleSound) v ⟨"wwise_sound_id_3", 4, true, fun (x : Genie.GraphicAngleSound) => x.wwise_sound_id_3, fun x y => { x with wwise_sound_id_3 := y }⟩ where
  self _ := rfl
  get_set _ _ := rfl
  fits x hx := by
    have hx : GraphicAngleSound.WF v x := hx
    exact fits_i32.2 hx.wwise_sound_id_3
  wf x hx y hy := by
    have hx : GraphicAngleSound.WF v x := hx
    exact { hx with wwise_sound_id_3 := fits_i32.1 hy }
  splits x hx := by
    have hx : GraphicAngleSound.WF v x := hx
    refine ⟨fun i => .int 4 true i, .int _ _, ?_⟩
    show Splits _ (fun y => GraphicAngleSound.layout v { x with wwise_sound_id_3 := y }) _
    simp only [GraphicAngleSound.layout]
    walk Splits.here

theorem GraphicAngleSound.intFields (v : Version) : ∀ f ∈ Node.intFields v (.record .GraphicAngleSound), IntField.OK (.record .GraphicAngleSound) v f :=
  forall_cons (GraphicAngleSound.intField_frame_num v) (forall_cons (GraphicAngleSound.intField_sound_id v) (forall_cons (GraphicAngleSound.intField_wwise_sound_id v) (forall_cons (GraphicAngleSound.intField_frame_num_2 v) (forall_cons (GraphicAngleSound.intField_sound_id_2 v) (forall_cons (GraphicAngleSound.intField_wwise_sound_id_2 v) (forall_cons (GraphicAngleSound.intField_frame_num_3 v) (forall_cons (GraphicAngleSound.intField_sound_id_3 v) (forall_cons (GraphicAngleSound.intField_wwise_sound_id_3 v) (forall_nil)))))))))

theorem Graphic.intField_slp (v : Version) : IntField.OK (.record .Graphic) v ⟨"slp", 4, true, fun (x : Genie.Graphic) => x.slp, fun x y => { x with slp := y }⟩ where
  self _ := rfl
  get_set _ _ := rfl
  fits x hx := by
    have hx : Graphic.WF v x := hx
    exact fits_i32.2 hx.slp
  wf x hx y hy := by
    have hx : Graphic.WF v x := hx
    exact { hx with slp := fits_i32.1 hy }
  splits x hx := by
    have hx : Graphic.WF v x := hx
    refine ⟨fun i => .int 4 true i, .int _ _, ?_⟩
    show Splits _ (fun y => Graphic.layout v { x with slp := y }) _
    simp only [Graphic.layout]
    walk Splits.here

theorem Graphic.intField_is_loaded (v : Version) : IntField.OK (.record .Graphic) v ⟨"is_loaded", 1, false, fun (x : Genie.Graphic) => x.is_loaded, fun x y => { x with is_loaded := y }⟩ where
  self _ := rfl
  get_set _ _ := rfl
  fits x hx := by
    have hx : Graphic.WF v x := hx
    exact fits_u8.2 hx.is_loaded
  wf x hx y hy := by
    have hx : Graphic.WF v x := hx
    exact { hx with is_loaded := fits_u8.1 hy }
  splits x hx := by
    have hx : Graphic.WF v x := hx
    refine ⟨fun i => .int 1 false i, .int _ _, ?_⟩
    show Splits _ (fun y => Graphic.layout v { x with is_loaded := y }) _
    simp only [Graphic.layout]
    walk Splits.here

theorem Graphic.intField_old_color_flag (v : Version) : IntField.OK (.record .Graphic) v ⟨"old_color_flag", 1, false, fun (x : Genie.Graphic) => x.old_color_flag, fun x y => { x with old_color_flag := y }⟩ where
  self _ := rfl
  get_set _ _ := rfl
  fits x hx := by
    have hx : Graphic.WF v x := hx
    exact fits_u8.2 hx.old_color_flag
  wf x hx y hy := by
    have hx : Graphic.WF v x := hx
    exact { hx with old_color_flag := fits_u8.1 hy }
  splits x hx := by
    have hx : Graphic.WF v x := hx
    refine ⟨fun i => .int 1 false i, .int _ _, ?_⟩
    show Splits _ (fun y => Graphic.layout v { x with old_color_flag := y }) _
    simp only [Graphic.layout]
    walk Splits.here

theorem Graphic.intField_layer (v : Version) : IntField.OK (.record .Graphic) v ⟨"layer", 1, false, fun (x : Genie.Graphic) => x.layer, fun x y => { x with layer := y }⟩ where
  self _ := rfl
  get_set _ _ := rfl
  fits x hx := by
    have hx : Graphic.WF v x := hx
    exact fits_u8.2 hx.layer
  wf x hx y hy := by
    have hx : Graphic.WF v x := hx
    exact { hx with layer := fits_u8.1 hy }
  splits x hx := by
    have hx : Graphic.WF v x := hx
    refine ⟨fun i => .int 1 false i, .int _ _, ?_⟩
    show Splits _ (fun y => Graphic.layout v { x with layer := y }) _
    simp only [Graphic.layout]
    walk Splits.here

theorem Graphic.intField_player_color (v : Version) : IntField.OK (.record .Graphic) v ⟨"player_color", 2, true, fun (x : Genie.Graphic) => x.player_color, fun x y => { x with player_color := y }⟩ where
  self _ := rfl
  get_set _ _ := rfl
  fits x hx := by
    have hx : Graphic.WF v x := hx
    exact fits_i16.2 hx.player_color
  wf x hx y hy := by
    have hx : Graphic.WF v x := hx
    exact { hx with player_color := fits_i16.1 hy }
  splits x hx := by
    have hx : Graphic.WF v x := hx
    refine ⟨fun i => .int 2 true i, .int _ _, ?_⟩
    show Splits _ (fun y => Graphic.layout v { x with player_color := y }) _
    simp only [Graphic.layout]
    walk Splits.here

theorem Graphic.intField_transparent_selection (v : Version) : IntField.OK (.record .Graphic) v ⟨"transparent_selection", 1, false, fun (x : Genie.Graphic) => x.transparent_selection, fun x y => { x with transparent_selection := y }⟩ where
  self _ := rfl
  get_set _ _ := rfl
  fits x hx := by
    have hx : Graphic.WF v x := hx
    exact fits_u8.2 hx.transparent_selection
  wf x hx y hy := by
    have hx : Graphic.WF v x := hx
    exact { hx with transparent_selection := fits_u8.1 hy }
  splits x hx := by
    have hx : Graphic.WF v x := hx
    refine ⟨fun i => .int 1 false i, .int _ _, ?_⟩
    show Splits _ (fun y => Graphic.layout v { x with transparent_selection := y }) _
    simp only [Graphic.layout]
    walk Splits.here

theorem Graphic.intField_sound_id (v : Version) : IntField.OK (.record .Graphic) v ⟨"sound_id", 2, true, fun (x : Genie.Graphic) => x.sound_id, fun x y => { x with sound_id := y }⟩ where
  self _ := rfl
  get_set _ _ := rfl
  fits x hx := by
    have hx : Graphic.WF v x := hx
    exact fits_i16.2 hx.sound_id
  wf x hx y hy := by
    have hx : Graphic.WF v x := hx
    exact { hx with sound_id := fits_i16.1 hy }
  splits x hx := by
    have hx : Graphic.WF v x := hx
    refine ⟨fun i => .int 2 true i, .int _ _, ?_⟩
    show Splits _ (fun y => Graphic.layout v { x with sound_id := y }) _
    simp only [Graphic.layout]
    walk Splits.here

theorem Graphic.intField_wwise_sound_id (v : Version) : IntField.OK (.record .Graphic) v ⟨"wwise_sound_id", 4, true, fun (x : Genie.Graphic) => x.wwise_sound_id, fun x y => { x with wwise_sound_id := y }⟩ where
  self _ := rfl
  get_set _ _ := rfl
  fits x hx := by
    have hx : Graphic.WF v x := hx
    exact fits_i32.2 hx.wwise_sound_id
  wf x hx y hy := by
    have hx : Graphic.WF v x := hx
    exact { hx with wwise_sound_id := fits_i32.1 hy }
  splits x hx := by
    have hx : Graphic.WF v x := hx
    refine ⟨fun i => .int 4 true i, .int _ _, ?_⟩
    show Splits _ (fun y => Graphic.layout v { x with wwise_sound_id := y }) _
    simp only [Graphic.layout]
    walk Splits.here

theorem Graphic.intField_frame_count (v : Version) : IntField.OK (.record .Graphic) v ⟨"frame_count", 2, true, fun (x : Genie.Graphic) => x.frame_count, fun x y => { x with frame_count := y }⟩ where
  self _ := rfl
  get_set _ _ := rfl
  fits x hx := by
    have hx : Graphic.WF v x := hx
    exact fits_i16.2 hx.frame_count
  wf x hx y hy := by
    have hx : Graphic.WF v x := hx
    exact { hx with frame_count := fits_i16.1 hy }
  splits x hx := by
    have hx : Graphic.WF v x := hx
    refine ⟨fun i => .int 2 true i, .int _ _, ?_⟩
    show Splits _ (fun y => Graphic.layout v { x with frame_count := y }) _
    simp only [Graphic.layout]
    walk Splits.here

theorem Graphic.intField_sequence_type (v : Version) : IntField.OK (.record .Graphic) v ⟨"sequence_type", 1, false, fun (x : Genie.Graphic) => x.sequence_type, fun x y => { x with sequence_type := y }⟩ where
  self _ := rfl
  get_set _ _ := rfl
  fits x hx := by
    have hx : Graphic.WF v x := hx
    exact fits_u8.2 hx.sequence_type
  wf x hx y hy := by
    have hx : Graphic.WF v x := hx
    exact { hx with sequence_type := fits_u8.1 hy }
  splits x hx := by
    have hx : Graphic.WF v x := hx
    refine ⟨fun i => .int 1 false i, .int _ _, ?_⟩
    show Splits _ (fun y => Graphic.layout v { x with sequence_type := y }) _
    simp only [Graphic.layout]
    walk Splits.here

theorem Graphic.intField_id (v : Version) : IntField.OK (.record .Graphic) v ⟨"id", 2, true, fun (x : Genie.Graphic) => x.id, fun x y => { x with id := y }⟩ where
  self _ := rfl
  get_set _ _ := rfl
  fits x hx := by
    have hx : Graphic.WF v x := hx
    exact fits_i16.2 hx.id
  wf x hx y hy := by
    have hx : Graphic.WF v x := hx
    exact { hx with id := fits_i16.1 hy }
  splits x hx := by
    have hx : Graphic.WF v x := hx
    refine ⟨fun i => .int 2 true i, .int _ _, ?_⟩
    show Splits _ (fun y => Graphic.layout v { x with id := y }) _
    simp only [Graphic.layout]
    walk Splits.here

theorem Graphic.intField_mirroring_mode (v : Version) : IntField.OK (.record .Graphic) v ⟨"mirroring_mode", 1, false, fun (x : Genie.Graphic) => x.mirroring_mode, fun x y => { x with mirroring_mode := y }⟩ where
  self _ := rfl
  get_set _ _ := rfl
  fits x hx := by
    have hx : Graphic.WF v x := hx
    exact fits_u8.2 hx.mirroring_mode
  wf x hx y hy := by
    have hx : Graphic.WF v x := hx
    exact { hx with mirroring_mode := fits_u8.1 hy }
  splits x hx := by
    have hx : Graphic.WF v x := hx
    refine ⟨fun i => .int 1 false i, .int _ _, ?_⟩
    show Splits _ (fun y => Graphic.layout v { x with mirroring_mode := y }) _
    simp only [Graphic.layout]
    walk Splits.here

theorem Graphic.intField_editor_flag (v : Version) : IntField.OK (.record .Graphic) v ⟨"editor_flag", 1, false, fun (x : Genie.Graphic) => x.editor_flag, fun x y => { x with editor_flag := y }⟩ where
  self _ := rfl
  get_set _ _ := rfl
  fits x hx := by
    have hx : Graphic.WF v x := hx
    exact fits_u8.2 hx.editor_flag
  wf x hx y hy := by
    have hx : Graphic.WF v x := hx
    exact { hx with editor_flag := fits_u8.1 hy }
  splits x hx := by
    have hx : Graphic.WF v x := hx
    refine ⟨fun i => .int 1 false i, .int _ _, ?_⟩
    show Splits _ (fun y => Graphic.layout v { x with editor_flag := y }) _
    simp only [Graphic.layout]
    walk Splits.here

theorem Graphic.intFields (v : Version) : ∀ f ∈ Node.intFields v (.record .Graphic), IntField.OK (.record .Graphic) v f :=
  forall_cons (Graphic.intField_slp v) (forall_cons (Graphic.intField_is_loaded v) (forall_cons (Graphic.intField_old_color_flag v) (forall_cons (Graphic.intField_layer v) (forall_cons (Graphic.intField_player_color v) (forall_cons (Graphic.intField_transparent_selection v) (forall_cons (Graphic.intField_sound_id v) (forall_cons (Graphic.intField_wwise_sound_id v) (forall_cons (Graphic.intField_frame_count v) (forall_cons (Graphic.intField_sequence_type v) (forall_cons (Graphic.intField_id v) (forall_cons (Graphic.intField_mirroring_mode v) (forall_cons (Graphic.intField_editor_flag v) (forall_nil)))))))))))))

theorem TerrainPassGraphic.intField_exit_tile_sprite_id (v : Version) : IntField.OK (.record .TerrainPassGraphic) v ⟨"exit_tile_sprite_id", 4, true, fun (x : Genie.TerrainPassGraphic) => x.exit_tile_sprite_id, fun x y => { x with exit_tile_sprite_id := y }⟩ where
  self _ := rfl
  get_set _ _ := rfl
  fits x hx := by
    have hx : TerrainPassGraphic.WF v x := hx
    exact fits_i32.2 hx.exit_tile_sprite_id
  wf x hx y hy := by
    have hx : TerrainPassGraphic.WF v x := hx
    exact { hx with exit_tile_sprite_id := fits_i32.1 hy }
  splits x hx := by
    have hx : TerrainPassGraphic.WF v x := hx
    refine ⟨fun i => .int 4 true i, .int _ _, ?_⟩
    show Splits _ (fun y => TerrainPassGraphic.layout v { x with exit_tile_sprite_id := y }) _
    simp only [TerrainPassGraphic.layout]
    walk Splits.here

theorem TerrainPassGraphic.intField_enter_tile_sprite_id (v : Version) : IntField.OK (.record .TerrainPassGraphic) v ⟨"enter_tile_sprite_id", 4, true, fun (x : Genie.TerrainPassGraphic) => x.enter_tile_sprite_id, fun x y => { x with enter_tile_sprite_id := y }⟩ where
  self _ := rfl
  get_set _ _ := rfl
  fits x hx := by
    have hx : TerrainPassGraphic.WF v x := hx
    exact fits_i32.2 hx.enter_tile_sprite_id
  wf x hx y hy := by
    have hx : TerrainPassGraphic.WF v x := hx
    exact { hx with enter_tile_sprite_id := fits_i32.1 hy }
  splits x hx := by
    have hx : TerrainPassGraphic.WF v x := hx
    refine ⟨fun i => .int 4 true i, .int _ _, ?_⟩
    show Splits _ (fun y => TerrainPassGraphic.layout v { x with enter_tile_sprite_id := y }) _
    simp only [TerrainPassGraphic.layout]
    walk Splits.here

theorem TerrainPassGraphic.intField_walk_tile_sprite_id (v : Version) : IntField.OK (.record .TerrainPassGraphic) v ⟨"walk_tile_sprite_id", 4, true, fun (x : Genie.TerrainPassGraphic) => x.walk_tile_sprite_id, fun x y => { x with walk_tile_sprite_id := y }⟩ where
  self _ := rfl
  get_set _ _ := rfl
  fits x hx := by
    have hx : TerrainPassGraphic.WF v x := hx
    exact fits_i32.2 hx.walk_tile_sprite_id
  wf x hx y hy := by
    have hx : TerrainPassGraphic.WF v x := hx
    exact { hx with walk_tile_sprite_id := fits_i32.1 hy }
  splits x hx := by
    have hx : TerrainPassGraphic.WF v x := hx
    refine ⟨fun i => .int 4 true i, .int _ _, ?_⟩
    show Splits _ (fun y => TerrainPassGraphic.layout v { x with walk_tile_sprite_id := y }) _
    simp only [TerrainPassGraphic.layout]
    walk Splits.here

theorem TerrainPassGraphic.intField_walk_sprite_rate (v : Version) : IntField.OK (.record .TerrainPassGraphic) v ⟨"walk_sprite_rate", 4, true, fun (x : Genie.TerrainPassGraphic) => x.walk_sprite_rate, fun x y => { x with walk_sprite_rate := y }⟩ where
  self _ := rfl
  get_set _ _ := rfl
  fits x hx := by
    have hx : TerrainPassGraphic.WF v x := hx
    exact fits_i32.2 hx.walk_sprite_rate
  wf x hx y hy := by
    have hx : TerrainPassGraphic.WF v x := hx
    exact { hx with walk_sprite_rate := fits_i32.1 hy }
  splits x hx := by
    have hx : TerrainPassGraphic.WF v x := hx
    refine ⟨fun i => .int 4 true i, .int _ _, ?_⟩
    show Splits _ (fun y => TerrainPassGraphic.layout v { x with walk_sprite_rate := y }) _
    simp only [TerrainPassGraphic.layout]
    walk Splits.here

theorem TerrainPassGraphic.intFields (v : Version) : ∀ f ∈ Node.intFields v (.record .TerrainPassGraphic), IntField.OK (.record .TerrainPassGraphic) v f :=
  forall_cons (TerrainPassGraphic.intField_exit_tile_sprite_id v) (forall_cons (TerrainPassGraphic.intField_enter_tile_sprite_id v) (forall_cons (TerrainPassGraphic.intField_walk_tile_sprite_id v) (forall_cons (TerrainPassGraphic.intField_walk_sprite_rate v) (forall_nil))))

theorem FrameData.intField_frame_count (v : Version) : IntField.OK (.record .FrameData) v ⟨"frame_count", 2, true, fun (x : Genie.FrameData) => x.frame_count, fun x y => { x with frame_count := y }⟩ where
  self _ := rfl
  get_set _ _ := rfl
  fits x hx := by
    have hx : FrameData.WF v x := hx
    exact fits_i16.2 hx.frame_count
  wf x hx y hy := by
    have hx : FrameData.WF v x := hx
    exact { hx with frame_count := fits_i16.1 hy }
  splits x hx := by
    have hx : FrameData.WF v x := hx
    refine ⟨fun i => .int 2 true i, .int _ _, ?_⟩
    show Splits _ (fun y => FrameData.layout v { x with frame_count := y }) _
    simp only [FrameData.layout]
    walk Splits.here

theorem FrameData.intField_angle_count (v : Version) : IntField.OK (.record .FrameData) v ⟨"angle_count", 2, true, fun (x : Genie.FrameData) => x.angle_count, fun x y => { x with angle_count := y }⟩ where
  self _ := rfl
  get_set _ _ := rfl
  fits x hx := by
    have hx : FrameData.WF v x := hx
    exact fits_i16.2 hx.angle_count
  wf x hx y hy := by
    have hx : FrameData.WF v x := hx
    exact { hx with angle_count := fits_i16.1 hy }
  splits x hx := by
    have hx : FrameData.WF v x := hx
    refine ⟨fun i => .int 2 true i, .int _ _, ?_⟩
    show Splits _ (fun y => FrameData.layout v { x with angle_count := y }) _
    simp only [FrameData.layout]
    walk Splits.here

theorem FrameData.intField_shape_id (v : Version) : IntField.OK (.record .FrameData) v ⟨"shape_id", 2, true, fun (x : Genie.FrameData) => x.shape_id, fun x y => { x with shape_id := y }⟩ where
  self _ := rfl
  get_set _ _ := rfl
  fits x hx := by
    have hx : FrameData.WF v x := hx
    exact fits_i16.2 hx.shape_id
  wf x hx y hy := by
    have hx : FrameData.WF v x := hx
    exact { hx with shape_id := fits_i16.1 hy }
  splits x hx := by
    have hx : FrameData.WF v x := hx
    refine ⟨fun i => .int 2 true i, .int _ _, ?_⟩
    show Splits _ (fun y => FrameData.layout v { x with shape_id := y }) _
    simp only [FrameData.layout]
    walk Splits.here

theorem FrameData.intFields (v : Version) : ∀ f ∈ Node.intFields v (.record .FrameData), IntField.OK (.record .FrameData) v f :=
  forall_cons (FrameData.intField_frame_count v) (forall_cons (FrameData.intField_angle_count v) (forall_cons (FrameData.intField_shape_id v) (forall_nil)))

theorem Terrain.intField_enabled (v : Version) : IntField.OK (.record .Terrain) v ⟨"enabled", 1, false, fun (x : Genie.Terrain) => x.enabled, fun x y => { x with enabled := y }⟩ where
  self _ := rfl
  get_set _ _ := rfl
  fits x hx := by
    have hx : Terrain.WF v x := hx
    exact fits_u8.2 hx.enabled
  wf x hx y hy := by
    have hx : Terrain.WF v x := hx
    exact { hx with enabled := fits_u8.1 hy }
  splits x hx := by
    have hx : Terrain.WF v x := hx
    refine ⟨fun i => .int 1 false i, .int _ _, ?_⟩
    show Splits _ (fun y => Terrain.layout v { x with enabled := y }) _
    simp only [Terrain.layout]
    walk Splits.here

theorem Terrain.intField_random (v : Version) : IntField.OK (.record .Terrain) v ⟨"random", 1, false, fun (x : Genie.Terrain) => x.random, fun x y => { x with random := y }⟩ where
  self _ := rfl
  get_set _ _ := rfl
  fits x hx := by
    have hx : Terrain.WF v x := hx
    exact fits_u8.2 hx.random
  wf x hx y hy := by
    have hx : Terrain.WF v x := hx
    exact { hx with random := fits_u8.1 hy }
  splits x hx := by
    have hx : Terrain.WF v x := hx
    refine ⟨fun i => .int 1 false i, .int _ _, ?_⟩
    show Splits _ (fun y => Terrain.layout v { x with random := y }) _
    simp only [Terrain.layout]
    walk Splits.here

theorem Terrain.intField_is_water (v : Version) : IntField.OK (.record .Terrain) v ⟨"is_water", 1, false, fun (x : Genie.Terrain) => x.is_water, fun x y => { x with is_water := y }⟩ where
  self _ := rfl
  get_set _ _ := rfl
  fits x hx := by
    have hx : Terrain.WF v x := hx
    exact fits_u8.2 hx.is_water
  wf x hx y hy := by
    have hx : Terrain.WF v x := hx
    exact { hx with is_water := fits_u8.1 hy }
  splits x hx := by
    have hx : Terrain.WF v x := hx
    refine ⟨fun i => .int 1 false i, .int _ _, ?_⟩
    show Splits _ (fun y => Terrain.layout v { x with is_water := y }) _
    simp only [Terrain.layout]
    walk Splits.here

theorem Terrain.intField_hide_in_editor (v : Version) : IntField.OK (.record .Terrain) v ⟨"hide_in_editor", 1, false, fun (x : Genie.Terrain) => x.hide_in_editor, fun x y => { x with hide_in_editor := y }⟩ where
  self _ := rfl
  get_set _ _ := rfl
  fits x hx := by
    have hx : Terrain.WF v x := hx
    exact fits_u8.2 hx.hide_in_editor
  wf x hx y hy := by
    have hx : Terrain.WF v x := hx
    exact { hx with hide_in_editor := fits_u8.1 hy }
  splits x hx := by
    have hx : Terrain.WF v x := hx
    refine ⟨fun i => .int 1 false i, .int _ _, ?_⟩
    show Splits _ (fun y => Terrain.layout v { x with hide_in_editor := y }) _
    simp only [Terrain.layout]
    walk Splits.here

theorem Terrain.intField_string_id (v : Version) : IntField.OK (.record .Terrain) v ⟨"string_id", 4, true, fun (x : Genie.Terrain) => x.string_id, fun x y => { x with string_id := y }⟩ where
  self _ := rfl
  get_set _ _ := rfl
  fits x hx := by
    have hx : Terrain.WF v x := hx
    exact fits_i32.2 hx.string_id
  wf x hx y hy := by
    have hx : Terrain.WF v x := hx
    exact { hx with string_id := fits_i32.1 hy }
  splits x hx := by
    have hx : Terrain.WF v x := hx
    refine ⟨fun i => .int 4 true i, .int _ _, ?_⟩
    show Splits _ (fun y => Terrain.layout v { x with string_id := y }) _
    simp only [Terrain.layout]
    walk Splits.here

theorem Terrain.intField_slp (v : Version) : IntField.OK (.record .Terrain) v ⟨"slp", 4, true, fun (x : Genie.Terrain) => x.slp, fun x y => { x with slp := y }⟩ where
  self _ := rfl
  get_set _ _ := rfl
  fits x hx := by
    have hx : Terrain.WF v x := hx
    exact fits_i32.2 hx.slp
  wf x hx y hy := by
    have hx : Terrain.WF v x := hx
    exact { hx with slp := fits_i32.1 hy }
  splits x hx := by
    have hx : Terrain.WF v x := hx
    refine ⟨fun i => .int 4 true i, .int _ _, ?_⟩
    show Splits _ (fun y => Terrain.layout v { x with slp := y }) _
    simp only [Terrain.layout]
    walk Splits.here

theorem Terrain.intField_shape_ptr (v : Version) : IntField.OK (.record .Terrain) v ⟨"shape_ptr", 4, true, fun (x : Genie.Terrain) => x.shape_ptr, fun x y => { x with shape_ptr := y }⟩ where
  self _ := rfl
  get_set _ _ := rfl
  fits x hx := by
    have hx : Terrain.WF v x := hx
    exact fits_i32.2 hx.shape_ptr
  wf x hx y hy := by
    have hx : Terrain.WF v x := hx
    exact { hx with shape_ptr := fits_i32.1 hy }
  splits x hx := by
    have hx : Terrain.WF v x := hx
    refine ⟨fun i => .int 4 true i, .int _ _, ?_⟩
    show Splits _ (fun y => Terrain.layout v { x with shape_ptr := y }) _
    simp only [Terrain.layout]
    walk Splits.here

theorem Terrain.intField_sound_id (v : Version) : IntField.OK (.record .Terrain) v ⟨"sound_id", 4, true, fun (x : Genie.Terrain) => x.sound_id, fun x y => { x with sound_id := y }⟩ where
  self _ := rfl
  get_set _ _ := rfl
  fits x hx := by
    have hx : Terrain.WF v x := hx
    exact fits_i32.2 hx.sound_id
  wf x hx y hy := by
    have hx : Terrain.WF v x := hx
    exact { hx with sound_id := fits_i32.1 hy }
  splits x hx := by
    have hx : Terrain.WF v x := hx
    refine ⟨fun i => .int 4 true i, .int _ _, ?_⟩
    show Splits _ (fun y => Terrain.layout v { x with sound_id := y }) _
    simp only [Terrain.layout]
    walk Splits.here

theorem Terrain.intField_wwise_sound_id (v : Version) : IntField.OK (.record .Terrain) v ⟨"wwise_sound_id", 4, false, fun (x : Genie.Terrain) => x.wwise_sound_id, fun x y => { x with wwise_sound_id := y }⟩ where
  self _ := rfl
  get_set _ _ := rfl
  fits x hx := by
    have hx : Terrain.WF v x := hx
    exact fits_u32.2 hx.wwise_sound_id
  wf x hx y hy := by
    have hx : Terrain.WF v x := hx
    exact { hx with wwise_sound_id := fits_u32.1 hy }
  splits x hx := by
    have hx : Terrain.WF v x := hx
    refine ⟨fun i => .int 4 false i, .int _ _, ?_⟩
    show Splits _ (fun y => Terrain.layout v { x with wwise_sound_id := y }) _
    simp only [Terrain.layout]
    walk Splits.here

theorem Terrain.intField_wwise_sound_stop_id (v : Version) : IntField.OK (.record .Terrain) v ⟨"wwise_sound_stop_id", 4, false, fun (x : Genie.Terrain) => x.wwise_sound_stop_id, fun x y => { x with wwise_sound_stop_id := y }⟩ where
  self _ := rfl
  get_set _ _ := rfl
  fits x hx := by
    have hx : Terrain.WF v x := hx
    exact fits_u32.2 hx.wwise_sound_stop_id
  wf x hx y hy := by
    have hx : Terrain.WF v x := hx
    exact { hx with wwise_sound_stop_id := fits_u32.1 hy }
  splits x hx := by
    have hx : Terrain.WF v x := hx
    refine ⟨fun i => .int 4 false i, .int _ _, ?_⟩
    show Splits _ (fun y => Terrain.layout v { x with wwise_sound_stop_id := y }) _
    simp only [Terrain.layout]
    walk Splits.here

theorem Terrain.intField_blend_priority (v : Version) : IntField.OK (.record .Terrain) v ⟨"blend_priority", 4, true, fun (x : Genie.Terrain) => x.blend_priority, fun x y => { x with blend_priority := y }⟩ where
  self _ := rfl
  get_set _ _ := rfl
  fits x hx := by
    have hx : Terrain.WF v x := hx
    exact fits_i32.2 hx.blend_priority
  wf x hx y hy := by
    have hx : Terrain.WF v x := hx
    exact { hx with blend_priority := fits_i32.1 hy }
  splits x hx := by
    have hx : Terrain.WF v x := hx
    refine ⟨fun i => .int 4 true i, .int _ _, ?_⟩
    show Splits _ (fun y => Terrain.layout v { x with blend_priority := y }) _
    simp only [Terrain.layout]
    walk Splits.here

theorem Terrain.intField_blend_type (v : Version) : IntField.OK (.record .Terrain) v ⟨"blend_type", 4, true, fun (x : Genie.Terrain) => x.blend_type, fun x y => { x with blend_type := y }⟩ where
  self _ := rfl
  get_set _ _ := rfl
  fits x hx := by
    have hx : Terrain.WF v x := hx
    exact fits_i32.2 hx.blend_type
  wf x hx y hy := by
    have hx : Terrain.WF v x := hx
    exact { hx with blend_type := fits_i32.1 hy }
  splits x hx := by
    have hx : Terrain.WF v x := hx
    refine ⟨fun i => .int 4 true i, .int _ _, ?_⟩
    show Splits _ (fun y => Terrain.layout v { x with blend_type := y }) _
    simp only [Terrain.layout]
    walk Splits.here

theorem Terrain.intField_passable_terrain (v : Version) : IntField.OK (.record .Terrain) v ⟨"passable_terrain", 1, false, fun (x : Genie.Terrain) => x.passable_terrain, fun x y => { x with passable_terrain := y }⟩ where
  self _ := rfl
  get_set _ _ := rfl
  fits x hx := by
    have hx : Terrain.WF v x := hx
    exact fits_u8.2 hx.passable_terrain
  wf x hx y hy := by
    have hx : Terrain.WF v x := hx
    exact { hx with passable_terrain := fits_u8.1 hy }
  splits x hx := by
    have hx : Terrain.WF v x := hx
    refine ⟨fun i => .int 1 false i, .int _ _, ?_⟩
    show Splits _ (fun y => Terrain.layout v { x with passable_terrain := y }) _
    simp only [Terrain.layout]
    walk Splits.here

theorem Terrain.intField_impassable_terrain (v : Version) : IntField.OK (.record .Terrain) v ⟨"impassable_terrain", 1, false, fun (x : Genie.Terrain) => x.impassable_terrain, fun x y => { x with impassable_terrain := y }⟩ where
  self _ := rfl
  get_set _ _ := rfl
  fits x hx := by
    have hx : Terrain.WF v x := hx
    exact fits_u8.2 hx.impassable_terrain
  wf x hx y hy := by
    have hx : Terrain.WF v x := hx
    exact { hx with impassable_terrain := fits_u8.1 hy }
  splits x hx := by
    have hx : Terrain.WF v x := hx
    refine ⟨fun i => .int 1 false i, .int _ _, ?_⟩
    show Splits _ (fun y => Terrain.layout v { x with impassable_terrain := y }) _
    simp only [Terrain.layout]
    walk Splits.here

theorem Terrain.intField_is_animated (v : Version) : IntField.OK (.record .Terrain) v ⟨"is_animated", 1, false, fun (x : Genie.Terrain) => x.is_animated, fun x y => { x with is_animated := y }⟩ where
  self _ := rfl
  get_set _ _ := rfl
  fits x hx := by
    have hx : Terrain.WF v x := hx
    exact fits_u8.2 hx.is_animated
  wf x hx y hy := by
    have hx : Terrain.WF v x := hx
    exact { hx with is_animated := fits_u8.1 hy }
  splits x hx := by
    have hx : Terrain.WF v x := hx
    refine ⟨fun i => .int 1 false i, .int _ _, ?_⟩
    show Splits _ (fun y => Terrain.layout v { x with is_animated := y }) _
    simp only [Terrain.layout]
    walk Splits.here

theorem Terrain.intField_animation_frames (v : Version) : IntField.OK (.record .Terrain) v ⟨"animation_frames", 2, true, fun (x : Genie.Terrain) => x.animation_frames, fun x y => { x with animation_frames := y }⟩ where
  self _ := rfl
  get_set _ _ := rfl
  fits x hx := by
    have hx : Terrain.WF v x := hx
    exact fits_i16.2 hx.animation_frames
  wf x hx y hy := by
    have hx : Terrain.WF v x := hx
    exact { hx with animation_frames := fits_i16.1 hy }
  splits x hx := by
    have hx : Terrain.WF v x := hx
    refine ⟨fun i => .int 2 true i, .int _ _, ?_⟩
    show Splits _ (fun y => Terrain.layout v { x with animation_frames := y }) _
    simp only [Terrain.layout]
    walk Splits.here

theorem Terrain.intField_pause_frames (v : Version) : IntField.OK (.record .Terrain) v ⟨"pause_frames", 2, true, fun (x : Genie.Terrain) => x.pause_frames, fun x y => { x with pause_frames := y }⟩ where
  self _ := rfl
  get_set _ _ := rfl
  fits x hx := by
    have hx : Terrain.WF v x := hx
    exact fits_i16.2 hx.pause_frames
  wf x hx y hy := by
    have hx : Terrain.WF v x := hx
    exact { hx with pause_frames := fits_i16.1 hy }
  splits x hx := by
    have hx : Terrain.WF v x := hx
    refine ⟨fun i => .int 2 true i, .int _ _, ?_⟩
    show Splits _ (fun y => Terrain.layout v { x with pause_frames := y }) _
    simp only [Terrain.layout]
    walk Splits.here

theorem Terrain.intField_frame (v : Version) : IntField.OK (.record .Terrain) v ⟨"frame", 2, true, fun (x : Genie.Terrain) => x.frame, fun x y => { x with frame := y }⟩ where
  self _ := rfl
  get_set _ _ := rfl
  fits x hx := by
    have hx : Terrain.WF v x := hx
    exact fits_i16.2 hx.frame
  wf x hx y hy := by
    have hx : Terrain.WF v x := hx
    exact { hx with frame := fits_i16.1 hy }
  splits x hx := by
    have hx : Terrain.WF v x := hx
    refine ⟨fun i => .int 2 true i, .int _ _, ?_⟩
    show Splits _ (fun y => Terrain.layout v { x with frame := y }) _
    simp only [Terrain.layout]
    walk Splits.here

theorem Terrain.intField_draw_frame (v : Version) : IntField.OK (.record .Terrain) v ⟨"draw_frame", 2, true, fun (x : Genie.Terrain) => x.draw_frame, fun x y => { x with draw_frame := y }⟩ where
  self _ := rfl
  get_set _ _ := rfl
  fits x hx := by
    have hx : Terrain.WF v x := hx
    exact fits_i16.2 hx.draw_frame
  wf x hx y hy := by
    have hx : Terrain.WF v x := hx
    exact { hx with draw_frame := fits_i16.1 hy }
  splits x hx := by
    have hx : Terrain.WF v x := hx
    refine ⟨fun i => .int 2 true i, .int _ _, ?_⟩
    show Splits _ (fun y => Terrain.layout v { x with draw_frame := y }) _
    simp only [Terrain.layout]
    walk Splits.here

theorem Terrain.intField_frame_changed (v : Version) : IntField.OK (.record .Terrain) v ⟨"frame_changed", 1, false, fun (x : Genie.Terrain) => x.frame_changed, fun x y => { x with frame_changed := y }⟩ where
  self _ := rfl
  get_set _ _ := rfl
  fits x hx := by
    have hx : Terrain.WF v x := hx
    exact fits_u8.2 hx.frame_changed
  wf x hx y hy := by
    have hx : Terrain.WF v x := hx
    exact { hx with frame_changed := fits_u8.1 hy }
  splits x hx := by
    have hx : Terrain.WF v x := hx
    refine ⟨fun i => .int 1 false i, .int _ _, ?_⟩
    show Splits _ (fun y => Terrain.layout v { x with frame_changed := y }) _
    simp only [Terrain.layout]
    walk Splits.here

theorem Terrain.intField_drawn (v : Version) : IntField.OK (.record .Terrain) v ⟨"drawn", 1, false, fun (x : Genie.Terrain) => x.drawn, fun x y => { x with drawn := y }⟩ where
  self _ := rfl
  get_set _ _ := rfl
  fits x hx := by
    have hx : Terrain.WF v x := hx
    exact fits_u8.2 hx.drawn
  wf x hx y hy := by
    have hx : Terrain.WF v x := hx
    exact { hx with drawn := fits_u8.1 hy }
  splits x hx := by
    have hx : Terrain.WF v x := hx
    refine ⟨fun i => .int 1 false i, .int _ _, ?_⟩
    show Splits _ (fun y => Terrain.layout v { x with drawn := y }) _
    simp only [Terrain.layout]
    walk Splits.here

theorem Terrain.intField_terrain_to_draw (v : Version) : IntField.OK (.record .Terrain) v ⟨"terrain_to_draw", 2, true, fun (x : Genie.Terrain) => x.terrain_to_draw, fun x y => { x with terrain_to_draw := y }⟩ where
  self _ := rfl
  get_set _ _ := rfl
  fits x hx := by
    have hx : Terrain.WF v x := hx
    exact fits_i16.2 hx.terrain_to_draw
  wf x hx y hy := by
    have hx : Terrain.WF v x := hx
    exact { hx with terrain_to_draw := fits_i16.1 hy }
  splits x hx := by
    have hx : Terrain.WF v x := hx
    refine ⟨fun i => .int 2 true i, .int _ _, ?_⟩
    show Splits _ (fun y => Terrain.layout v { x with terrain_to_draw := y }) _
    simp only [Terrain.layout]
    walk Splits.here

theorem Terrain.intField_number_of_terrain_units_used (v : Version) : IntField.OK (.record .Terrain) v ⟨"number_of_terrain_units_used", 2, true, fun (x : Genie.Terrain) => x.number_of_terrain_units_used, fun x y => { x with number_of_terrain_units_used := y }⟩ where
  self _ := rfl
  get_set _ _ := rfl
  fits x hx := by
    have hx : Terrain.WF v x := hx
    exact fits_i16.2 hx.number_of_terrain_units_used
  wf x hx y hy := by
    have hx : Terrain.WF v x := hx
    exact { hx with number_of_terrain_units_used := fits_i16.1 hy }
  splits x hx := by
    have hx : Terrain.WF v x := hx
    refine ⟨fun i => .int 2 true i, .int _ _, ?_⟩
    show Splits _ (fun y => Terrain.layout v { x with number_of_terrain_units_used := y }) _
    simp only [Terrain.layout]
    walk Splits.here

theorem Terrain.intField_phantom (v : Version) : IntField.OK (.record .Terrain) v ⟨"phantom", 2, true, fun (x : Genie.Terrain) => x.phantom, fun x y => { x with phantom := y }⟩ where
  self _ := rfl
  get_set _ _ := rfl
  fits x hx := by
    have hx : Terrain.WF v x := hx
    exact fits_i16.2 hx.phantom
  wf x hx y hy := by
    have hx : Terrain.WF v x := hx
    exact { hx with phantom := fits_i16.1 hy }
  splits x hx := by
    have hx : Terrain.WF v x := hx
    refine ⟨fun i => .int 2 true i, .int _ _, ?_⟩
    show Splits _ (fun y => Terrain.layout v { x with phantom := y }) _
    simp only [Terrain.layout]
    walk Splits.here

theorem Terrain.intFields (v : Version) : ∀ f ∈ Node.intFields v (.record .Terrain), IntField.OK (.record .Terrain) v f :=
  forall_cons (Terrain.intField_enabled v) (forall_cons (Terrain.intField_random v) (forall_cons (Terrain.intField_is_water v) (forall_cons (Terrain.intField_hide_in_editor v) (forall_cons (Terrain.intField_string_id v) (forall_cons (Terrain.intField_slp v) (forall_cons (Terrain.intField_shape_ptr v) (forall_cons (Terrain.intField_sound_id v) (forall_cons (Terrain.intField_wwise_sound_id v) (forall_cons (Terrain.intField_wwise_sound_stop_id v) (forall_cons (Terrain.intField_blend_priority v) (forall_cons (Terrain.intField_blend_type v) (forall_cons (Terrain.intField_passable_terrain v) (forall_cons (Terrain.intField_impassable_terrain v) (forall_cons (Terrain.intField_is_animated v) (forall_cons (Terrain.intField_animation_frames v) (forall_cons (Terrain.intField_pause_frames v) (forall_cons (Terrain.intField_frame v) (forall_cons (Terrain.intField_draw_frame v) (forall_cons (Terrain.intField_frame_changed v) (forall_cons (Terrain.intField_drawn v) (forall_cons (Terrain.intField_terrain_to_draw v) (forall_cons (Terrain.intField_number_of_terrain_units_used v) (forall_cons (Terrain.intField_phantom v) (forall_nil))))))))))))))))))))))))

theorem TileSize.intField_width (v : Version) : IntField.OK (.record .TileSize) v ⟨"width", 2, true, fun (x : Genie.TileSize) => x.width, fun x y => { x with width := y }⟩ where
  self _ := rfl
  get_set _ _ := rfl
  fits x hx := by
    have hx : TileSize.WF v x := hx
    exact fits_i16.2 hx.width
  wf x hx y hy := by
    have hx : TileSize.WF v x := hx
    exact { hx with width := fits_i16.1 hy }
  splits x hx := by
    have hx : TileSize.WF v x := hx
    refine ⟨fun i => .int 2 true i, .int _ _, ?_⟩
    show Splits _ (fun y => TileSize.layout v { x with width := y }) _
    simp only [TileSize.layout]
    walk Splits.here

theorem TileSize.intField_height (v : Version) : IntField.OK (.record .TileSize) v ⟨"height", 2, true, fun (x : Genie.TileSize) => x.height, fun x y => { x with height := y }⟩ where
  self _ := rfl
  get_set _ _ := rfl
  fits x hx := by
    have hx : TileSize.WF v x := hx
    exact fits_i16.2 hx.height
  wf x hx y hy := by
    have hx : TileSize.WF v x := hx
    exact { hx with height := fits_i16.1 hy }
  splits x hx := by
    have hx : TileSize.WF v x := hx
    refine ⟨fun i => .int 2 true i, .int _ _, ?_⟩
    show Splits _ (fun y => TileSize.layout v { x with height := y }) _
    simp only [TileSize.layout]
    walk Splits.here

theorem TileSize.intField_delta_y (v : Version) : IntField.OK (.record .TileSize) v ⟨"delta_y", 2, true, fun (x : Genie.TileSize) => x.delta_y, fun x y => { x with delta_y := y }⟩ where
  self _ := rfl
  get_set _ _ := rfl
  fits x hx := by
    have hx : TileSize.WF v x := hx
    exact fits_i16.2 hx.delta_y
  wf x hx y hy := by
    have hx : TileSize.WF v x := hx
    exact { hx with delta_y := fits_i16.1 hy }
  splits x hx := by
    have hx : TileSize.WF v x := hx
    refine ⟨fun i => .int 2 true i, .int _ _, ?_⟩
    show Splits _ (fun y => TileSize.layout v { x with delta_y := y }) _
    simp only [TileSize.layout]
    walk Splits.here

theorem TileSize.intFields (v : Version) : ∀ f ∈ Node.intFields v (.record .TileSize), IntField.OK (.record .TileSize) v f :=
  forall_cons (TileSize.intField_width v) (forall_cons (TileSize.intField_height v) (forall_cons (TileSize.intField_delta_y v) (forall_nil)))

theorem TerrainBlock.intField_virtual_function_ptr (v : Version) : IntField.OK (.record .TerrainBlock) v ⟨"virtual_function_ptr", 4, false, fun (x : Genie.TerrainBlock) => x.virtual_function_ptr, fun x y => { x with virtual_function_ptr := y }⟩ where
  self _ := rfl
  get_set _ _ := rfl
  fits x hx := by
    have hx : TerrainBlock.WF v x := hx
    exact fits_u32.2 hx.virtual_function_ptr
  wf x hx y hy := by
    have hx : TerrainBlock.WF v x := hx
    exact { hx with virtual_function_ptr := fits_u32.1 hy }
  splits x hx := by
    have hx : TerrainBlock.WF v x := hx
    refine ⟨fun i => .int 4 false i, .int _ _, ?_⟩
    show Splits _ (fun y => TerrainBlock.layout v { x with virtual_function_ptr := y }) _
    simp only [TerrainBlock.layout]
    walk Splits.here

theorem TerrainBlock.intField_map_pointer (v : Version) : IntField.OK (.record .TerrainBlock) v ⟨"map_pointer", 4, false, fun (x : Genie.TerrainBlock) => x.map_pointer, fun x y => { x with map_pointer := y }⟩ where
  self _ := rfl
  get_set _ _ := rfl
  fits x hx := by
    have hx : TerrainBlock.WF v x := hx
    exact fits_u32.2 hx.map_pointer
  wf x hx y hy := by
    have hx : TerrainBlock.WF v x := hx
    exact { hx with map_pointer := fits_u32.1 hy }
  splits x hx := by
    have hx : TerrainBlock.WF v x := hx
    refine ⟨fun i => .int 4 false i, .int _ _, ?_⟩
    show Splits _ (fun y => TerrainBlock.layout v { x with map_pointer := y }) _
    simp only [TerrainBlock.layout]
    walk Splits.here

theorem TerrainBlock.intField_map_width (v : Version) : IntField.OK (.record .TerrainBlock) v ⟨"map_width", 4, true, fun (x : Genie.TerrainBlock) => x.map_width, fun x y => { x with map_width := y }⟩ where
  self _ := rfl
  get_set _ _ := rfl
  fits x hx := by
    have hx : TerrainBlock.WF v x := hx
    exact fits_i32.2 hx.map_width
  wf x hx y hy := by
    have hx : TerrainBlock.WF v x := hx
    exact { hx with map_width := fits_i32.1 hy }
  splits x hx := by
    have hx : TerrainBlock.WF v x := hx
    refine ⟨fun i => .int 4 true i, .int _ _, ?_⟩
    show Splits _ (fun y => TerrainBlock.layout v { x with map_width := y }) _
    simp only [TerrainBlock.layout]
    walk Splits.here

theorem TerrainBlock.intField_map_height (v : Version) : IntField.OK (.record .TerrainBlock) v ⟨"map_height", 4, true, fun (x : Genie.TerrainBlock) => x.map_height, fun x y => { x with map_height := y }⟩ where
  self _ := rfl
  get_set _ _ := rfl
  fits x hx := by
    have hx : TerrainBlock.WF v x := hx
    exact fits_i32.2 hx.map_height
  wf x hx y hy := by
    have hx : TerrainBlock.WF v x := hx
    exact { hx with map_height := fits_i32.1 hy }
  splits x hx := by
    have hx : TerrainBlock.WF v x := hx
    refine ⟨fun i => .int 4 true i, .int _ _, ?_⟩
    show Splits _ (fun y => TerrainBlock.layout v { x with map_height := y }) _
    simp only [TerrainBlock.layout]
    walk Splits.here

theorem TerrainBlock.intField_world_width (v : Version) : IntField.OK (.record .TerrainBlock) v ⟨"world_width", 4, true, fun (x : Genie.TerrainBlock) => x.world_width, fun x y => { x with world_width := y }⟩ where
  self _ := rfl
  get_set _ _ := rfl
  fits x hx := by
    have hx : TerrainBlock.WF v x := hx
    exact fits_i32.2 hx.world_width
  wf x hx y hy := by
    have hx : TerrainBlock.WF v x := hx
    exact { hx with world_width := fits_i32.1 hy }
  splits x hx := by
    have hx : TerrainBlock.WF v x := hx
    refine ⟨fun i => .int 4 true i, .int _ _, ?_⟩
    show Splits _ (fun y => TerrainBlock.layout v { x with world_width := y }) _
    simp only [TerrainBlock.layout]
    walk Splits.here

theorem TerrainBlock.intField_world_height (v : Version) : IntField.OK (.record .TerrainBlock) v ⟨"world_height", 4, true, fun (x : Genie.TerrainBlock) => x.world_height, fun x y => { x with world_height := y }⟩ where
  self _ := rfl
  get_set _ _ := rfl
  fits x hx := by
    have hx : TerrainBlock.WF v x := hx
    exact fits_i32.2 hx.world_height
  wf x hx y hy := by
    have hx : TerrainBlock.WF v x := hx
    exact { hx with world_height := fits_i32.1 hy }
  splits x hx := by
    have hx : TerrainBlock.WF v x := hx
    refine ⟨fun i => .int 4 true i, .int _ _, ?_⟩
    show Splits _ (fun y => TerrainBlock.layout v { x with world_height := y }) _
    simp only [TerrainBlock.layout]
    walk Splits.here

theorem TerrainBlock.intField_padding_ts (v : Version) : IntField.OK (.record .TerrainBlock) v ⟨"padding_ts", 2, true, fun (x : Genie.TerrainBlock) => x.padding_ts, fun x y => { x with padding_ts := y }⟩ where
  self _ := rfl
  get_set _ _ := rfl
  fits x hx := by
    have hx : TerrainBlock.WF v x := hx
    exact fits_i16.2 hx.padding_ts
  wf x hx y hy := by
    have hx : TerrainBlock.WF v x := hx
    exact { hx with padding_ts := fits_i16.1 hy }
  splits x hx := by
    have hx : TerrainBlock.WF v x := hx
    refine ⟨fun i => .int 2 true i, .int _ _, ?_⟩
    show Splits _ (fun y => TerrainBlock.layout v { x with padding_ts := y }) _
    simp only [TerrainBlock.layout]
    walk Splits.here

theorem TerrainBlock.intField_terrains_used_2 (v : Version) : IntField.OK (.record .TerrainBlock) v ⟨"terrains_used_2", 2, true, fun (x : Genie.TerrainBlock) => x.terrains_used_2, fun x y => { x with terrains_used_2 := y }⟩ where
  self _ := rfl
  get_set _ _ := rfl
  fits x hx := by
    have hx : TerrainBlock.WF v x := hx
    exact fits_i16.2 hx.terrains_used_2
  wf x hx y hy := by
    have hx : TerrainBlock.WF v x := hx
    exact { hx with terrains_used_2 := fits_i16.1 hy }
  splits x hx := by
    have hx : TerrainBlock.WF v x := hx
    refine ⟨fun i => .int 2 true i, .int _ _, ?_⟩
    show Splits _ (fun y => TerrainBlock.layout v { x with terrains_used_2 := y }) _
    simp only [TerrainBlock.layout]
    walk Splits.here

theorem TerrainBlock.intField_borders_used (v : Version) : IntField.OK (.record .TerrainBlock) v ⟨"borders_used", 2, true, fun (x : Genie.TerrainBlock) => x.borders_used, fun x y => { x with borders_used := y }⟩ where
  self _ := rfl
  get_set _ _ := rfl
  fits x hx := by
    have hx : TerrainBlock.WF v x := hx
    exact fits_i16.2 hx.borders_used
  wf x hx y hy := by
    have hx : TerrainBlock.WF v x := hx
    exact { hx with borders_used := fits_i16.1 hy }
  splits x hx := by
    have hx : TerrainBlock.WF v x := hx
    refine ⟨fun i => .int 2 true i, .int _ _, ?_⟩
    show Splits _ (fun y => TerrainBlock.layout v { x with borders_used := y }) _
    simp only [TerrainBlock.layout]
    walk Splits.here

theorem TerrainBlock.intField_max_terrain (v : Version) : IntField.OK (.record .TerrainBlock) v ⟨"max_terrain", 2, true, fun (x : Genie.TerrainBlock) => x.max_terrain, fun x y => { x with max_terrain := y }⟩ where
  self _ := rfl
  get_set _ _ := rfl
  fits x hx := by
    have hx : TerrainBlock.WF v x := hx
    exact fits_i16.2 hx.max_terrain
  wf x hx y hy := by
    have hx : TerrainBlock.WF v x := hx
    exact { hx with max_terrain := fits_i16.1 hy }
  splits x hx := by
    have hx : TerrainBlock.WF v x := hx
    refine ⟨fun i => .int 2 true i, .int _ _, ?_⟩
    show Splits _ (fun y => TerrainBlock.layout v { x with max_terrain := y }) _
    simp only [TerrainBlock.layout]
    walk Splits.here

theorem TerrainBlock.intField_tile_width (v : Version) : IntField.OK (.record .TerrainBlock) v ⟨"tile_width", 2, true, fun (x : Genie.TerrainBlock) => x.tile_width, fun x y => { x with tile_width := y }⟩ where
  self _ := rfl
  get_set _ _ := rfl
  fits x hx := by
    have hx : TerrainBlock.WF v x := hx
    exact fits_i16.2 hx.tile_width
  wf x hx y hy := by
    have hx : TerrainBlock.WF v x := hx
    exact { hx with tile_width := fits_i16.1 hy }
  splits x hx := by
    have hx : TerrainBlock.WF v x := hx
    refine ⟨fun i => .int 2 true i, .int _ _, ?_⟩
    show Splits _ (fun y => TerrainBlock.layout v { x with tile_width := y }) _
    simp only [TerrainBlock.layout]
    walk Splits.here

theorem TerrainBlock.intField_tile_height (v : Version) : IntField.OK (.record .TerrainBlock) v ⟨"tile_height", 2, true, fun (x : Genie.TerrainBlock) => x.tile_height, fun x y => { x with tile_height := y }⟩ where
  self _ := rfl
  get_set _ _ := rfl
  fits x hx := by
    have hx : TerrainBlock.WF v x := hx
    exact fits_i16.2 hx.tile_height
  wf x hx y hy := by
    have hx : TerrainBlock.WF v x := hx
    exact { hx with tile_height := fits_i16.1 hy }
  splits x hx := by
    have hx : TerrainBlock.WF v x := hx
    refine ⟨fun i => .int 2 true i, .int _ _, ?_⟩
    show Splits _ (fun y => TerrainBlock.layout v { x with tile_height := y }) _
    simp only [TerrainBlock.layout]
    walk Splits.here

theorem TerrainBlock.intField_tile_half_height (v : Version) : IntField.OK (.record .TerrainBlock) v ⟨"tile_half_height", 2, true, fun (x : Genie.TerrainBlock) => x.tile_half_height, fun x y => { x with tile_half_height := y }⟩ where
  self _ := rfl
  get_set _ _ := rfl
  fits x hx := by
    have hx : TerrainBlock.WF v x := hx
    exact fits_i16.2 hx.tile_half_height
  wf x hx y hy := by
    have hx : TerrainBlock.WF v x := hx
    exact { hx with tile_half_height := fits_i16.1 hy }
  splits x hx := by
    have hx : TerrainBlock.WF v x := hx
    refine ⟨fun i => .int 2 true i, .int _ _, ?_⟩
    show Splits _ (fun y => TerrainBlock.layout v { x with tile_half_height := y }) _
    simp only [TerrainBlock.layout]
    walk Splits.here

theorem TerrainBlock.intField_tile_half_width (v : Version) : IntField.OK (.record .TerrainBlock) v ⟨"tile_half_width", 2, true, fun (x : Genie.TerrainBlock) => x.tile_half_width, fun x y => { x with tile_half_width := y }⟩ where
  self _ := rfl
  get_set _ _ := rfl
  fits x hx := by
    have hx : TerrainBlock.WF v x := hx
    exact fits_i16.2 hx.tile_half_width
  wf x hx y hy := by
    have hx : TerrainBlock.WF v x := hx
    exact { hx with tile_half_width := fits_i16.1 hy }
  splits x hx := by
    have hx : TerrainBlock.WF v x := hx
    refine ⟨fun i => .int 2 true i, .int _ _, ?_⟩
    show Splits _ (fun y => TerrainBlock.layout v { x with tile_half_width := y }) _
    simp only [TerrainBlock.layout]
    walk Splits.here

theorem TerrainBlock.intField_elev_height (v : Version) : IntField.OK (.record .TerrainBlock) v ⟨"elev_height", 2, true, fun (x : Genie.TerrainBlock) => x.elev_height, fun x y => { x with elev_height := y }⟩ where
  self _ := rfl
  get_set _ _ := rfl
  fits x hx := by
    have hx : TerrainBlock.WF v x := hx
    exact fits_i16.2 hx.elev_height
  wf x hx y hy := by
    have hx : TerrainBlock.WF v x := hx
    exact { hx with elev_height := fits_i16.1 hy }
  splits x hx := by
    have hx : TerrainBlock.WF v x := hx
    refine ⟨fun i => .int 2 true i, .int _ _, ?_⟩
    show Splits _ (fun y => TerrainBlock.layout v { x with elev_height := y }) _
    simp only [TerrainBlock.layout]
    walk Splits.here

theorem TerrainBlock.intField_cur_row (v : Version) : IntField.OK (.record .TerrainBlock) v ⟨"cur_row", 2, true, fun (x : Genie.TerrainBlock) => x.cur_row, fun x y => { x with cur_row := y }⟩ where
  self _ := rfl
  get_set _ _ := rfl
  fits x hx := by
    have hx : TerrainBlock.WF v x := hx
    exact fits_i16.2 hx.cur_row
  wf x hx y hy := by
    have hx : TerrainBlock.WF v x := hx
    exact { hx with cur_row := fits_i16.1 hy }
  splits x hx := by
    have hx : TerrainBlock.WF v x := hx
    refine ⟨fun i => .int 2 true i, .int _ _, ?_⟩
    show Splits _ (fun y => TerrainBlock.layout v { x with cur_row := y }) _
    simp only [TerrainBlock.layout]
    walk Splits.here

theorem TerrainBlock.intField_cur_col (v : Version) : IntField.OK (.record .TerrainBlock) v ⟨"cur_col", 2, true, fun (x : Genie.TerrainBlock) => x.cur_col, fun x y => { x with cur_col := y }⟩ where
  self _ := rfl
  get_set _ _ := rfl
  fits x hx := by
    have hx : TerrainBlock.WF v x := hx
    exact fits_i16.2 hx.cur_col
  wf x hx y hy := by
    have hx : TerrainBlock.WF v x := hx
    exact { hx with cur_col := fits_i16.1 hy }
  splits x hx := by
    have hx : TerrainBlock.WF v x := hx
    refine ⟨fun i => .int 2 true i, .int _ _, ?_⟩
    show Splits _ (fun y => TerrainBlock.layout v { x with cur_col := y }) _
    simp only [TerrainBlock.layout]
    walk Splits.here

theorem TerrainBlock.intField_block_beg_row (v : Version) : IntField.OK (.record .TerrainBlock) v ⟨"block_beg_row", 2, true, fun (x : Genie.TerrainBlock) => x.block_beg_row, fun x y => { x with block_beg_row := y }⟩ where
  self _ := rfl
  get_set _ _ := rfl
  fits x hx := by
    have hx : TerrainBlock.WF v x := hx
    exact fits_i16.2 hx.block_beg_row
  wf x hx y hy := by
    have hx : TerrainBlock.WF v x := hx
    exact { hx with block_beg_row := fits_i16.1 hy }
  splits x hx := by
    have hx : TerrainBlock.WF v x := hx
    refine ⟨fun i => .int 2 true i, .int _ _, ?_⟩
    show Splits _ (fun y => TerrainBlock.layout v { x with block_beg_row := y }) _
    simp only [TerrainBlock.layout]
    walk Splits.here

theorem TerrainBlock.intField_block_end_row (v : Version) : IntField.OK (.record .TerrainBlock) v ⟨"block_end_row", 2, true, fun (x : Genie.TerrainBlock) => x.block_end_row, fun x y => { x with block_end_row := y }⟩ where
  self _ := rfl
  get_set _ _ := rfl
  fits x hx := by
    have hx : TerrainBlock.WF v x := hx
    exact fits_i16.2 hx.block_end_row
  wf x hx y hy := by
    have hx : TerrainBlock.WF v x := hx
    exact { hx with block_end_row := fits_i16.1 hy }
  splits x hx := by
    have hx : TerrainBlock.WF v x := hx
    refine ⟨fun i => .int 2 true i, .int _ _, ?_⟩
    show Splits _ (fun y => TerrainBlock.layout v { x with block_end_row := y }) _
    simp only [TerrainBlock.layout]
    walk Splits.here

theorem TerrainBlock.intField_block_beg_col (v : Version) : IntField.OK (.record .TerrainBlock) v ⟨"block_beg_col", 2, true, fun (x : Genie.TerrainBlock) => x.block_beg_col, fun x y => { x with block_beg_col := y }⟩ where
  self _ := rfl
  get_set _ _ := rfl
  fits x hx := by
    have hx : TerrainBlock.WF v x := hx
    exact fits_i16.2 hx.block_beg_col
  wf x hx y hy := by
    have hx : TerrainBlock.WF v x := hx
    exact { hx with block_beg_col := fits_i16.1 hy }
  splits x hx := by
    have hx : TerrainBlock.WF v x := hx
    refine ⟨fun i => .int 2 true i, .int _ _, ?_⟩
    show Splits _ (fun y => TerrainBlock.layout v { x with block_beg_col := y }) _
    simp only [TerrainBlock.layout]
    walk Splits.here

theorem TerrainBlock.intField_block_end_col (v : Version) : IntField.OK (.record .TerrainBlock) v ⟨"block_end_col", 2, true, fun (x : Genie.TerrainBlock) => x.block_end_col, fun x y => { x with block_end_col := y }⟩ where
  self _ := rfl
  get_set _ _ := rfl
  fits x hx := by
    have hx : TerrainBlock.WF v x := hx
    exact fits_i16.2 hx.block_end_col
  wf x hx y hy := by
    have hx : TerrainBlock.WF v x := hx
    exact { hx with block_end_col := fits_i16.1 hy }
  splits x hx := by
    have hx : TerrainBlock.WF v x := hx
    refine ⟨fun i => .int 2 true i, .int _ _, ?_⟩
    show Splits _ (fun y => TerrainBlock.layout v { x with block_end_col := y }) _
    simp only [TerrainBlock.layout]
    walk Splits.here

theorem TerrainBlock.intField_search_map_ptr (v : Version) : IntField.OK (.record .TerrainBlock) v ⟨"search_map_ptr", 4, false, fun (x : Genie.TerrainBlock) => x.search_map_ptr, fun x y => { x with search_map_ptr := y }⟩ where
  self _ := rfl
  get_set _ _ := rfl
  fits x hx := by
    have hx : TerrainBlock.WF v x := hx
    exact fits_u32.2 hx.search_map_ptr
  wf x hx y hy := by
    have hx : TerrainBlock.WF v x := hx
    exact { hx with search_map_ptr := fits_u32.1 hy }
  splits x hx := by
    have hx : TerrainBlock.WF v x := hx
    refine ⟨fun i => .int 4 false i, .int _ _, ?_⟩
    show Splits _ (fun y => TerrainBlock.layout v { x with search_map_ptr := y }) _
    simp only [TerrainBlock.layout]
    walk Splits.here

theorem TerrainBlock.intField_search_map_rows_ptr (v : Version) : IntField.OK (.record .TerrainBlock) v ⟨"search_map_rows_ptr", 4, false, fun (x : Genie.TerrainBlock) => x.search_map_rows_ptr, fun x y => { x with search_map_rows_ptr := y }⟩ where
  self _ := rfl
  get_set _ _ := rfl
  fits x hx := by
    have hx : TerrainBlock.WF v x := hx
    exact fits_u32.2 hx.search_map_rows_ptr
  wf x hx y hy := by
    have hx : TerrainBlock.WF v x := hx
    exact { hx with search_map_rows_ptr := fits_u32.1 hy }
  splits x hx := by
    have hx : TerrainBlock.WF v x := hx
    refine ⟨fun i => .int 4 false i, .int _ _, ?_⟩
    show Splits _ (fun y => TerrainBlock.layout v { x with search_map_rows_ptr := y }) _
    simp only [TerrainBlock.layout]
    walk Splits.here

theorem TerrainBlock.intField_any_frame_change (v : Version) : IntField.OK (.record .TerrainBlock) v ⟨"any_frame_change", 1, false, fun (x : Genie.TerrainBlock) => x.any_frame_change, fun x y => { x with any_frame_change := y }⟩ where
  self _ := rfl
  get_set _ _ := rfl
  fits x hx := by
    have hx : TerrainBlock.WF v x := hx
    exact fits_u8.2 hx.any_frame_change
  wf x hx y hy := by
    have hx : TerrainBlock.WF v x := hx
    exact { hx with any_frame_change := fits_u8.1 hy }
  splits x hx := by
    have hx : TerrainBlock.WF v x := hx
    refine ⟨fun i => .int 1 false i, .int _ _, ?_⟩
    show Splits _ (fun y => TerrainBlock.layout v { x with any_frame_change := y }) _
    simp only [TerrainBlock.layout]
    walk Splits.here

theorem TerrainBlock.intField_map_visible_flag (v : Version) : IntField.OK (.record .TerrainBlock) v ⟨"map_visible_flag", 1, false, fun (x : Genie.TerrainBlock) => x.map_visible_flag, fun x y => { x with map_visible_flag := y }⟩ where
  self _ := rfl
  get_set _ _ := rfl
  fits x hx := by
    have hx : TerrainBlock.WF v x := hx
    exact fits_u8.2 hx.map_visible_flag
  wf x hx y hy := by
    have hx : TerrainBlock.WF v x := hx
    exact { hx with map_visible_flag := fits_u8.1 hy }
  splits x hx := by
    have hx : TerrainBlock.WF v x := hx
    refine ⟨fun i => .int 1 false i, .int _ _, ?_⟩
    show Splits _ (fun y => TerrainBlock.layout v { x with map_visible_flag := y }) _
    simp only [TerrainBlock.layout]
    walk Splits.here

theorem TerrainBlock.intField_fog_flag (v : Version) : IntField.OK (.record .TerrainBlock) v ⟨"fog_flag", 1, false, fun (x : Genie.TerrainBlock) => x.fog_flag, fun x y => { x with fog_flag := y }⟩ where
  self _ := rfl
  get_set _ _ := rfl
  fits x hx := by
    have hx : TerrainBlock.WF v x := hx
    exact fits_u8.2 hx.fog_flag
  wf x hx y hy := by
    have hx : TerrainBlock.WF v x := hx
    exact { hx with fog_flag := fits_u8.1 hy }
  splits x hx := by
    have hx : TerrainBlock.WF v x := hx
    refine ⟨fun i => .int 1 false i, .int _ _, ?_⟩
    show Splits _ (fun y => TerrainBlock.layout v { x with fog_flag := y }) _
    simp only [TerrainBlock.layout]
    walk Splits.here

theorem TerrainBlock.intFields (v : Version) : ∀ f ∈ Node.intFields v (.record .TerrainBlock), IntField.OK (.record .TerrainBlock) v f :=
  forall_cons (TerrainBlock.intField_virtual_function_ptr v) (forall_cons (TerrainBlock.intField_map_pointer v) (forall_cons (TerrainBlock.intField_map_width v) (forall_cons (TerrainBlock.intField_map_height v) (forall_cons (TerrainBlock.intField_world_width v) (forall_cons (TerrainBlock.intField_world_height v) (forall_cons (TerrainBlock.intField_padding_ts v) (forall_cons (TerrainBlock.intField_terrains_used_2 v) (forall_cons (TerrainBlock.intField_borders_used v) (forall_cons (TerrainBlock.intField_max_terrain v) (forall_cons (TerrainBlock.intField_tile_width v) (forall_cons (TerrainBlock.intField_tile_height v) (forall_cons (TerrainBlock.intField_tile_half_height v) (forall_cons (TerrainBlock.intField_tile_half_width v) (forall_cons (TerrainBlock.intField_elev_height v) (forall_cons (TerrainBlock.intField_cur_row v) (forall_cons (TerrainBlock.intField_cur_col v) (forall_cons (TerrainBlock.intField_block_beg_row v) (forall_cons (TerrainBlock.intField_block_end_row v) (forall_cons (TerrainBlock.intField_block_beg_col v) (forall_cons (TerrainBlock.intField_block_end_col v) (forall_cons (TerrainBlock.intField_search_map_ptr v) (forall_cons (TerrainBlock.intField_search_map_rows_ptr v) (forall_cons (TerrainBlock.intField_any_frame_change v) (forall_cons (TerrainBlock.intField_map_visible_flag v) (forall_cons (TerrainBlock.intField_fog_flag v) (forall_nil))))))))))))))))))))))))))

theorem MapUnit.intField_unit (v : Version) : IntField.OK (.record .MapUnit) v ⟨"unit", 4, true, fun (x : Genie.MapUnit) => x.unit, fun x y => { x with unit := y }⟩ where
  self _ := rfl
  get_set _ _ := rfl
  fits x hx := by
    have hx : MapUnit.WF v x := hx
    exact fits_i32.2 hx.unit
  wf x hx y hy := by
    have hx : MapUnit.WF v x := hx
    exact { hx with unit := fits_i32.1 hy }
  splits x hx := by
    have hx : MapUnit.WF v x := hx
    refine ⟨fun i => .int 4 true i, .int _ _, ?_⟩
    show Splits _ (fun y => MapUnit.layout v { x with unit := y }) _
    simp only [MapUnit.layout]
    walk Splits.here

theorem MapUnit.intField_host_terrain (v : Version) : IntField.OK (.record .MapUnit) v ⟨"host_terrain", 4, true, fun (x : Genie.MapUnit) => x.host_terrain, fun x y => { x with host_terrain := y }⟩ where
  self _ := rfl
  get_set _ _ := rfl
  fits x hx := by
    have hx : MapUnit.WF v x := hx
    exact fits_i32.2 hx.host_terrain
  wf x hx y hy := by
    have hx : MapUnit.WF v x := hx
    exact { hx with host_terrain := fits_i32.1 hy }
  splits x hx := by
    have hx : MapUnit.WF v x := hx
    refine ⟨fun i => .int 4 true i, .int _ _, ?_⟩
    show Splits _ (fun y => MapUnit.layout v { x with host_terrain := y }) _
    simp only [MapUnit.layout]
    walk Splits.here

theorem MapUnit.intField_group_placing (v : Version) : IntField.OK (.record .MapUnit) v ⟨"group_placing", 1, false, fun (x : Genie.MapUnit) => x.group_placing, fun x y => { x with group_placing := y }⟩ where
  self _ := rfl
  get_set _ _ := rfl
  fits x hx := by
    have hx : MapUnit.WF v x := hx
    exact fits_u8.2 hx.group_placing
  wf x hx y hy := by
    have hx : MapUnit.WF v x := hx
    exact { hx with group_placing := fits_u8.1 hy }
  splits x hx := by
    have hx : MapUnit.WF v x := hx
    refine ⟨fun i => .int 1 false i, .int _ _, ?_⟩
    show Splits _ (fun y => MapUnit.layout v { x with group_placing := y }) _
    simp only [MapUnit.layout]
    walk Splits.here

theorem MapUnit.intField_scale_flag (v : Version) : IntField.OK (.record .MapUnit) v ⟨"scale_flag", 1, false, fun (x : Genie.MapUnit) => x.scale_flag, fun x y => { x with scale_flag := y }⟩ where
  self _ := rfl
  get_set _ _ := rfl
  fits x hx := by
    have hx : MapUnit.WF v x := hx
    exact fits_u8.2 hx.scale_flag
  wf x hx y hy := by
    have hx : MapUnit.WF v x := hx
    exact { hx with scale_flag := fits_u8.1 hy }
  splits x hx := by
    have hx : MapUnit.WF v x := hx
    refine ⟨fun i => .int 1 false i, .int _ _, ?_⟩
    show Splits _ (fun y => MapUnit.layout v { x with scale_flag := y }) _
    simp only [MapUnit.layout]
    walk Splits.here

theorem MapUnit.intField_padding_1 (v : Version) : IntField.OK (.record .MapUnit) v ⟨"padding_1", 2, true, fun (x : Genie.MapUnit) => x.padding_1, fun x y => { x with padding_1 := y }⟩ where
  self _ := rfl
  get_set _ _ := rfl
  fits x hx := by
    have hx : MapUnit.WF v x := hx
    exact fits_i16.2 hx.padding_1
  wf x hx y hy := by
    have hx : MapUnit.WF v x := hx
    exact { hx with padding_1 := fits_i16.1 hy }
  splits x hx := by
    have hx : MapUnit.WF v x := hx
    refine ⟨fun i => .int 2 true i, .int _ _, ?_⟩
    show Splits _ (fun y => MapUnit.layout v { x with padding_1 := y }) _
    simp only [MapUnit.layout]
    walk Splits.here

theorem MapUnit.intField_objects_per_group (v : Version) : IntField.OK (.record .MapUnit) v ⟨"objects_per_group", 4, true, fun (x : Genie.MapUnit) => x.objects_per_group, fun x y => { x with objects_per_group := y }⟩ where
  self _ := rfl
  get_set _ _ := rfl
  fits x hx := by
    have hx : MapUnit.WF v x := hx
    exact fits_i32.2 hx.objects_per_group
  wf x hx y hy := by
    have hx : MapUnit.WF v x := hx
    exact { hx with objects_per_group := fits_i32.1 hy }
  splits x hx := by
    have hx : MapUnit.WF v x := hx
    refine ⟨fun i => .int 4 true i, .int _ _, ?_⟩
    show Splits _ (fun y => MapUnit.layout v { x with objects_per_group := y }) _
    simp only [MapUnit.layout]
    walk Splits.here

theorem MapUnit.intField_fluctuation (v : Version) : IntField.OK (.record .MapUnit) v ⟨"fluctuation", 4, true, fun (x : Genie.MapUnit) => x.fluctuation, fun x y => { x with fluctuation := y }⟩ where
  self _ := rfl
  get_set _ _ := rfl
  fits x hx := by
    have hx : MapUnit.WF v x := hx
    exact fits_i32.2 hx.fluctuation
  wf x hx y hy := by
    have hx : MapUnit.WF v x := hx
    exact { hx with fluctuation := fits_i32.1 hy }
  splits x hx := by
    have hx : MapUnit.WF v x := hx
    refine ⟨fun i => .int 4 true i, .int _ _, ?_⟩
    show Splits _ (fun y => MapUnit.layout v { x with fluctuation := y }) _
    simp only [MapUnit.layout]
    walk Splits.here

theorem MapUnit.intField_groups_per_player (v : Version) : IntField.OK (.record .MapUnit) v ⟨"groups_per_player", 4, true, fun (x : Genie.MapUnit) => x.groups_per_player, fun x y => { x with groups_per_player := y }⟩ where
  self _ := rfl
  get_set _ _ := rfl
  fits x hx := by
    have hx : MapUnit.WF v x := hx
    exact fits_i32.2 hx.groups_per_player
  wf x hx y hy := by
    have hx : MapUnit.WF v x := hx
    exact { hx with groups_per_player := fits_i32.1 hy }
  splits x hx := by
    have hx : MapUnit.WF v x := hx
    refine ⟨fun i => .int 4 true i, .int _ _, ?_⟩
    show Splits _ (fun y => MapUnit.layout v { x with groups_per_player := y }) _
    simp only [MapUnit.layout]
    walk Splits.here

theorem MapUnit.intField_group_arena (v : Version) : IntField.OK (.record .MapUnit) v ⟨"group_arena", 4, true, fun (x : Genie.MapUnit) => x.group_arena, fun x y => { x with group_arena := y }⟩ where
  self _ := rfl
  get_set _ _ := rfl
  fits x hx := by
    have hx : MapUnit.WF v x := hx
    exact fits_i32.2 hx.group_arena
  wf x hx y hy := by
    have hx : MapUnit.WF v x := hx
    exact { hx with group_arena := fits_i32.1 hy }
  splits x hx := by
    have hx : MapUnit.WF v x := hx
    refine ⟨fun i => .int 4 true i, .int _ _, ?_⟩
    show Splits _ (fun y => MapUnit.layout v { x with group_arena := y }) _
    simp only [MapUnit.layout]
    walk Splits.here

theorem MapUnit.intField_player_id (v : Version) : IntField.OK (.record .MapUnit) v ⟨"player_id", 4, true, fun (x : Genie.MapUnit) => x.player_id, fun x y => { x with player_id := y }⟩ where
  self _ := rfl
  get_set _ _ := rfl
  fits x hx := by
    have hx : MapUnit.WF v x := hx
    exact fits_i32.2 hx.player_id
  wf x hx y hy := by
    have hx : MapUnit.WF v x := hx
    exact { hx with player_id := fits_i32.1 hy }
  splits x hx := by
    have hx : MapUnit.WF v x := hx
    refine ⟨fun i => .int 4 true i, .int _ _, ?_⟩
    show Splits _ (fun y => MapUnit.layout v { x with player_id := y }) _
    simp only [MapUnit.layout]
    walk Splits.here

theorem MapUnit.intField_set_place_for_all_players (v : Version) : IntField.OK (.record .MapUnit) v ⟨"set_place_for_all_players", 4, true, fun (x : Genie.MapUnit) => x.set_place_for_all_players, fun x y => { x with set_place_for_all_players := y }⟩ where
  self _ := rfl
  get_set _ _ := rfl
  fits x hx := by
    have hx : MapUnit.WF v x := hx
    exact fits_i32.2 hx.set_place_for_all_players
  wf x hx y hy := by
    have hx : MapUnit.WF v x := hx
    exact { hx with set_place_for_all_players := fits_i32.1 hy }
  splits x hx := by
    have hx : MapUnit.WF v x := hx
    refine ⟨fun i => .int 4 true i, .int _ _, ?_⟩
    show Splits _ (fun y => MapUnit.layout v { x with set_place_for_all_players := y }) _
    simp only [MapUnit.layout]
    walk Splits.here

theorem MapUnit.intField_min_distance_to_players (v : Version) : IntField.OK (.record .MapUnit) v ⟨"min_distance_to_players", 4, true, fun (x : Genie.MapUnit) => x.min_distance_to_players, fun x y => { x with min_distance_to_players := y }⟩ where
  self _ := rfl
  get_set _ _ := rfl
  fits x hx := by
    have hx : MapUnit.WF v x := hx
    exact fits_i32.2 hx.min_distance_to_players
  wf x hx y hy := by
    have hx : MapUnit.WF v x := hx
    exact { hx with min_distance_to_players := fits_i32.1 hy }
  splits x hx := by
    have hx : MapUnit.WF v x := hx
    refine ⟨fun i => .int 4 true i, .int _ _, ?_⟩
    show Splits _ (fun y => MapUnit.layout v { x with min_distance_to_players := y }) _
    simp only [MapUnit.layout]
    walk Splits.here

theorem MapUnit.intField_max_distance_to_players (v : Version) : IntField.OK (.record .MapUnit) v ⟨"max_distance_to_players", 4, true, fun (x : Genie.MapUnit) => x.max_distance_to_players, fun x y => { x with max_distance_to_players := y }⟩ where
  self _ := rfl
  get_set _ _ := rfl
  fits x hx := by
    have hx : MapUnit.WF v x := hx
    exact fits_i32.2 hx.max_distance_to_players
  wf x hx y hy := by
    have hx : MapUnit.WF v x := hx
    exact { hx with max_distance_to_players := fits_i32.1 hy }
  splits x hx := by
    have hx : MapUnit.WF v x := hx
    refine ⟨fun i => .int 4 true i, .int _ _, ?_⟩
    show Splits _ (fun y => MapUnit.layout v { x with max_distance_to_players := y }) _
    simp only [MapUnit.layout]
    walk Splits.here

theorem MapUnit.intFields (v : Version) : ∀ f ∈ Node.intFields v (.record .MapUnit), IntField.OK (.record .MapUnit) v f :=
  forall_cons (MapUnit.intField_unit v) (forall_cons (MapUnit.intField_host_terrain v) (forall_cons (MapUnit.intField_group_placing v) (forall_cons (MapUnit.intField_scale_flag v) (forall_cons (MapUnit.intField_padding_1 v) (forall_cons (MapUnit.intField_objects_per_group v) (forall_cons (MapUnit.intField_fluctuation v) (forall_cons (MapUnit.intField_groups_per_player v) (forall_cons (MapUnit.intField_group_arena v) (forall_cons (MapUnit.intField_player_id v) (forall_cons (MapUnit.intField_set_place_for_all_players v) (forall_cons (MapUnit.intField_min_distance_to_players v) (forall_cons (MapUnit.intField_max_distance_to_players v) (forall_nil)))))))))))))

theorem MapTerrain.intField_proportion (v : Version) : IntField.OK (.record .MapTerrain) v ⟨"proportion", 4, true, fun (x : Genie.MapTerrain) => x.proportion, fun x y => { x with proportion := y }⟩ where
  self _ := rfl
  get_set _ _ := rfl
  fits x hx := by
    have hx : MapTerrain.WF v x := hx
    exact fits_i32.2 hx.proportion
  wf x hx y hy := by
    have hx : MapTerrain.WF v x := hx
    exact { hx with proportion := fits_i32.1 hy }
  splits x hx := by
    have hx : MapTerrain.WF v x := hx
    refine ⟨fun i => .int 4 true i, .int _ _, ?_⟩
    show Splits _ (fun y => MapTerrain.layout v { x with proportion := y }) _
    simp only [MapTerrain.layout]
    walk Splits.here

theorem MapTerrain.intField_terrain (v : Version) : IntField.OK (.record .MapTerrain) v ⟨"terrain", 4, true, fun (x : Genie.MapTerrain) => x.terrain, fun x y => { x with terrain := y }⟩ where
  self _ := rfl
  get_set _ _ := rfl
  fits x hx := by
    have hx : MapTerrain.WF v x := hx
    exact fits_i32.2 hx.terrain
  wf x hx y hy := by
    have hx : MapTerrain.WF v x := hx
    exact { hx with terrain := fits_i32.1 hy }
  splits x hx := by
    have hx : MapTerrain.WF v x := hx
    refine ⟨fun i => .int 4 true i, .int _ _, ?_⟩
    show Splits _ (fun y => MapTerrain.layout v { x with terrain := y }) _
    simp only [MapTerrain.layout]
    walk Splits.here

theorem MapTerrain.intField_clump_count (v : Version) : IntField.OK (.record .MapTerrain) v ⟨"clump_count", 4, true, fun (x : Genie.MapTerrain) => x.clump_count, fun x y => { x with clump_count := y }⟩ where
  self _ := rfl
  get_set _ _ := rfl
  fits x hx := by
    have hx : MapTerrain.WF v x := hx
    exact fits_i32.2 hx.clump_count
  wf x hx y hy := by
    have hx : MapTerrain.WF v x := hx
    exact { hx with clump_count := fits_i32.1 hy }
  splits x hx := by
    have hx : MapTerrain.WF v x := hx
    refine ⟨fun i => .int 4 true i, .int _ _, ?_⟩
    show Splits _ (fun y => MapTerrain.layout v { x with clump_count := y }) _
    simp only [MapTerrain.layout]
    walk Splits.here

theorem MapTerrain.intField_edge_spacing (v : Version) : IntField.OK (.record .MapTerrain) v ⟨"edge_spacing", 4, true, fun (x : Genie.MapTerrain) => x.edge_spacing, fun x y => { x with edge_spacing := y }⟩ where
  self _ := rfl
  get_set _ _ := rfl
  fits x hx := by
    have hx : MapTerrain.WF v x := hx
    exact fits_i32.2 hx.edge_spacing
  wf x hx y hy := by
    have hx : MapTerrain.WF v x := hx
    exact { hx with edge_spacing := fits_i32.1 hy }
  splits x hx := by
    have hx : MapTerrain.WF v x := hx
    refine ⟨fun i => .int 4 true i, .int _ _, ?_⟩
    show Splits _ (fun y => MapTerrain.layout v { x with edge_spacing := y }) _
    simp only [MapTerrain.layout]
    walk Splits.here

theorem MapTerrain.intField_placement_terrain (v : Version) : IntField.OK (.record .MapTerrain) v ⟨"placement_terrain", 4, true, fun (x : Genie.MapTerrain) => x.placement_terrain, fun x y => { x with placement_terrain := y }⟩ where
  self _ := rfl
  get_set _ _ := rfl
  fits x hx := by
    have hx : MapTerrain.WF v x := hx
    exact fits_i32.2 hx.placement_terrain
  wf x hx y hy := by
    have hx : MapTerrain.WF v x := hx
    exact { hx with placement_terrain := fits_i32.1 hy }
  splits x hx := by
    have hx : MapTerrain.WF v x := hx
    refine ⟨fun i => .int 4 true i, .int _ _, ?_⟩
    show Splits _ (fun y => MapTerrain.layout v { x with placement_terrain := y }) _
    simp only [MapTerrain.layout]
    walk Splits.here

theorem MapTerrain.intField_clumpiness (v : Version) : IntField.OK (.record .MapTerrain) v ⟨"clumpiness", 4, true, fun (x : Genie.MapTerrain) => x.clumpiness, fun x y => { x with clumpiness := y }⟩ where
  self _ := rfl
  get_set _ _ := rfl
  fits x hx := by
    have hx : MapTerrain.WF v x := hx
    exact fits_i32.2 hx.clumpiness
  wf x hx y hy := by
    have hx : MapTerrain.WF v x := hx
    exact { hx with clumpiness := fits_i32.1 hy }
  splits x hx := by
    have hx : MapTerrain.WF v x := hx
    refine ⟨fun i => .int 4 true i, .int _ _, ?_⟩
    show Splits _ (fun y => MapTerrain.layout v { x with clumpiness := y }) _
    simp only [MapTerrain.layout]
    walk Splits.here

theorem MapTerrain.intFields (v : Version) : ∀ f ∈ Node.intFields v (.record .MapTerrain), IntField.OK (.record .MapTerrain) v f :=
  forall_cons (MapTerrain.intField_proportion v) (forall_cons (MapTerrain.intField_terrain v) (forall_cons (MapTerrain.intField_clump_count v) (forall_cons (MapTerrain.intField_edge_spacing v) (forall_cons (MapTerrain.intField_placement_terrain v) (forall_cons (MapTerrain.intField_clumpiness v) (forall_nil))))))

theorem MapLand.intField_land_id (v : Version) : IntField.OK (.record .MapLand) v ⟨"land_id", 4, true, fun (x : Genie.MapLand) => x.land_id, fun x y => { x with land_id := y }⟩ where
  self _ := rfl
  get_set _ _ := rfl
  fits x hx := by
    have hx : MapLand.WF v x := hx
    exact fits_i32.2 hx.land_id
  wf x hx y hy := by
    have hx : MapLand.WF v x := hx
    exact { hx with land_id := fits_i32.1 hy }
  splits x hx := by
    have hx : MapLand.WF v x := hx
    refine ⟨fun i => .int 4 true i, .int _ _, ?_⟩
    show Splits _ (fun y => MapLand.layout v { x with land_id := y }) _
    simp only [MapLand.layout]
    walk Splits.here

theorem MapLand.intField_terrain (v : Version) : IntField.OK (.record .MapLand) v ⟨"terrain", 4, false, fun (x : Genie.MapLand) => x.terrain, fun x y => { x with terrain := y }⟩ where
  self _ := rfl
  get_set _ _ := rfl
  fits x hx := by
    have hx : MapLand.WF v x := hx
    exact fits_u32.2 hx.terrain
  wf x hx y hy := by
    have hx : MapLand.WF v x := hx
    exact { hx with terrain := fits_u32.1 hy }
  splits x hx := by
    have hx : MapLand.WF v x := hx
    refine ⟨fun i => .int 4 false i, .int _ _, ?_⟩
    show Splits _ (fun y => MapLand.layout v { x with terrain := y }) _
    simp only [MapLand.layout]
    walk Splits.here

theorem MapLand.intField_land_spacing (v : Version) : IntField.OK (.record .MapLand) v ⟨"land_spacing", 4, true, fun (x : Genie.MapLand) => x.land_spacing, fun x y => { x with land_spacing := y }⟩ where
  self _ := rfl
  get_set _ _ := rfl
  fits x hx := by
    have hx : MapLand.WF v x := hx
    exact fits_i32.2 hx.land_spacing
  wf x hx y hy := by
    have hx : MapLand.WF v x := hx
    exact { hx with land_spacing := fits_i32.1 hy }
  splits x hx := by
    have hx : MapLand.WF v x := hx
    refine ⟨fun i => .int 4 true i, .int _ _, ?_⟩
    show Splits _ (fun y => MapLand.layout v { x with land_spacing := y }) _
    simp only [MapLand.layout]
    walk Splits.here

theorem MapLand.intField_base_size (v : Version) : IntField.OK (.record .MapLand) v ⟨"base_size", 4, true, fun (x : Genie.MapLand) => x.base_size, fun x y => { x with base_size := y }⟩ where
  self _ := rfl
  get_set _ _ := rfl
  fits x hx := by
    have hx : MapLand.WF v x := hx
    exact fits_i32.2 hx.base_size
  wf x hx y hy := by
    have hx : MapLand.WF v x := hx
    exact { hx with base_size := fits_i32.1 hy }
  splits x hx := by
    have hx : MapLand.WF v x := hx
    refine ⟨fun i => .int 4 true i, .int _ _, ?_⟩
    show Splits _ (fun y => MapLand.layout v { x with base_size := y }) _
    simp only [MapLand.layout]
    walk Splits.here

theorem MapLand.intField_zone (v : Version) : IntField.OK (.record .MapLand) v ⟨"zone", 1, false, fun (x : Genie.MapLand) => x.zone, fun x y => { x with zone := y }⟩ where
  self _ := rfl
  get_set _ _ := rfl
  fits x hx := by
    have hx : MapLand.WF v x := hx
    exact fits_u8.2 hx.zone
  wf x hx y hy := by
    have hx : MapLand.WF v x := hx
    exact { hx with zone := fits_u8.1 hy }
  splits x hx := by
    have hx : MapLand.WF v x := hx
    refine ⟨fun i => .int 1 false i, .int _ _, ?_⟩
    show Splits _ (fun y => MapLand.layout v { x with zone := y }) _
    simp only [MapLand.layout]
    walk Splits.here

theorem MapLand.intField_placement_type (v : Version) : IntField.OK (.record .MapLand) v ⟨"placement_type", 1, false, fun (x : Genie.MapLand) => x.placement_type, fun x y => { x with placement_type := y }⟩ where
  self _ := rfl
  get_set _ _ := rfl
  fits x hx := by
    have hx : MapLand.WF v x := hx
    exact fits_u8.2 hx.placement_type
  wf x hx y hy := by
    have hx : MapLand.WF v x := hx
    exact { hx with placement_type := fits_u8.1 hy }
  splits x hx := by
    have hx : MapLand.WF v x := hx
    refine ⟨fun i => .int 1 false i, .int _ _, ?_⟩
    show Splits _ (fun y => MapLand.layout v { x with placement_type := y }) _
    simp only [MapLand.layout]
    walk Splits.here

theorem MapLand.intField_padding_1 (v : Version) : IntField.OK (.record .MapLand) v ⟨"padding_1", 2, true, fun (x : Genie.MapLand) => x.padding_1, fun x y => { x with padding_1 := y }⟩ where
  self _ := rfl
  get_set _ _ := rfl
  fits x hx := by
    have hx : MapLand.WF v x := hx
    exact fits_i16.2 hx.padding_1
  wf x hx y hy := by
    have hx : MapLand.WF v x := hx
    exact { hx with padding_1 := fits_i16.1 hy }
  splits x hx := by
    have hx : MapLand.WF v x := hx
    refine ⟨fun i => .int 2 true i, .int _ _, ?_⟩
    show Splits _ (fun y => MapLand.layout v { x with padding_1 := y }) _
    simp only [MapLand.layout]
    walk Splits.here

theorem MapLand.intField_base_x (v : Version) : IntField.OK (.record .MapLand) v ⟨"base_x", 4, true, fun (x : Genie.MapLand) => x.base_x, fun x y => { x with base_x := y }⟩ where
  self _ := rfl
  get_set _ _ := rfl
  fits x hx := by
    have hx : MapLand.WF v x := hx
    exact fits_i32.2 hx.base_x
  wf x hx y hy := by
    have hx : MapLand.WF v x := hx
    exact { hx with base_x := fits_i32.1 hy }
  splits x hx := by
    have hx : MapLand.WF v x := hx
    refine ⟨fun i => .int 4 true i, .int _ _, ?_⟩
    show Splits _ (fun y => MapLand.layout v { x with base_x := y }) _
    simp only [MapLand.layout]
    walk Splits.here

theorem MapLand.intField_base_y (v : Version) : IntField.OK (.record .MapLand) v ⟨"base_y", 4, true, fun (x : Genie.MapLand) => x.base_y, fun x y => { x with base_y := y }⟩ where
  self _ := rfl
  get_set _ _ := rfl
  fits x hx := by
    have hx : MapLand.WF v x := hx
    exact fits_i32.2 hx.base_y
  wf x hx y hy := by
    have hx : MapLand.WF v x := hx
    exact { hx with base_y := fits_i32.1 hy }
  splits x hx := by
    have hx : MapLand.WF v x := hx
    refine ⟨fun i => .int 4 true i, .int _ _, ?_⟩
    show Splits _ (fun y => MapLand.layout v { x with base_y := y }) _
    simp only [MapLand.layout]
    walk Splits.here

theorem MapLand.intField_land_proportion (v : Version) : IntField.OK (.record .MapLand) v ⟨"land_proportion", 1, false, fun (x : Genie.MapLand) => x.land_proportion, fun x y => { x with land_proportion := y }⟩ where
  self _ := rfl
  get_set _ _ := rfl
  fits x hx := by
    have hx : MapLand.WF v x := hx
    exact fits_u8.2 hx.land_proportion
  wf x hx y hy := by
    have hx : MapLand.WF v x := hx
    exact { hx with land_proportion := fits_u8.1 hy }
  splits x hx := by
    have hx : MapLand.WF v x := hx
    refine ⟨fun i => .int 1 false i, .int _ _, ?_⟩
    show Splits _ (fun y => MapLand.layout v { x with land_proportion := y }) _
    simp only [MapLand.layout]
    walk Splits.here

theorem MapLand.intField_by_player_flag (v : Version) : IntField.OK (.record .MapLand) v ⟨"by_player_flag", 1, false, fun (x : Genie.MapLand) => x.by_player_flag, fun x y => { x with by_player_flag := y }⟩ where
  self _ := rfl
  get_set _ _ := rfl
  fits x hx := by
    have hx : MapLand.WF v x := hx
    exact fits_u8.2 hx.by_player_flag
  wf x hx y hy := by
    have hx : MapLand.WF v x := hx
    exact { hx with by_player_flag := fits_u8.1 hy }
  splits x hx := by
    have hx : MapLand.WF v x := hx
    refine ⟨fun i => .int 1 false i, .int _ _, ?_⟩
    show Splits _ (fun y => MapLand.layout v { x with by_player_flag := y }) _
    simp only [MapLand.layout]
    walk Splits.here

theorem MapLand.intField_padding_2 (v : Version) : IntField.OK (.record .MapLand) v ⟨"padding_2", 2, true, fun (x : Genie.MapLand) => x.padding_2, fun x y => { x with padding_2 := y }⟩ where
  self _ := rfl
  get_set _ _ := rfl
  fits x hx := by
    have hx : MapLand.WF v x := hx
    exact fits_i16.2 hx.padding_2
  wf x hx y hy := by
    have hx : MapLand.WF v x := hx
    exact { hx with padding_2 := fits_i16.1 hy }
  splits x hx := by
    have hx : MapLand.WF v x := hx
    refine ⟨fun i => .int 2 true i, .int _ _, ?_⟩
    show Splits _ (fun y => MapLand.layout v { x with padding_2 := y }) _
    simp only [MapLand.layout]
    walk Splits.here

theorem MapLand.intField_start_area_radius (v : Version) : IntField.OK (.record .MapLand) v ⟨"start_area_radius", 4, true, fun (x : Genie.MapLand) => x.start_area_radius, fun x y => { x with start_area_radius := y }⟩ where
  self _ := rfl
  get_set _ _ := rfl
  fits x hx := by
    have hx : MapLand.WF v x := hx
    exact fits_i32.2 hx.start_area_radius
  wf x hx y hy := by
    have hx : MapLand.WF v x := hx
    exact { hx with start_area_radius := fits_i32.1 hy }
  splits x hx := by
    have hx : MapLand.WF v x := hx
    refine ⟨fun i => .int 4 true i, .int _ _, ?_⟩
    show Splits _ (fun y => MapLand.layout v { x with start_area_radius := y }) _
    simp only [MapLand.layout]
    walk Splits.here

theorem MapLand.intField_terrain_edge_fade (v : Version) : IntField.OK (.record .MapLand) v ⟨"terrain_edge_fade", 4, true, fun (x : Genie.MapLand) => x.terrain_edge_fade, fun x y => { x with terrain_edge_fade := y }⟩ where
  self _ := rfl
  get_set _ _ := rfl
  fits x hx := by
    have hx : MapLand.WF v x := hx
    exact fits_i32.2 hx.terrain_edge_fade
  wf x hx y hy := by
    have hx : MapLand.WF v x := hx
    exact { hx with terrain_edge_fade := fits_i32.1 hy }
  splits x hx := by
    have hx : MapLand.WF v x := hx
    refine ⟨fun i => .int 4 true i, .int _ _, ?_⟩
    show Splits _ (fun y => MapLand.layout v { x with terrain_edge_fade := y }) _
    simp only [MapLand.layout]
    walk Splits.here

theorem MapLand.intField_clumpiness (v : Version) : IntField.OK (.record .MapLand) v ⟨"clumpiness", 4, true, fun (x : Genie.MapLand) => x.clumpiness, fun x y => { x with clumpiness := y }⟩ where
  self _ := rfl
  get_set _ _ := rfl
  fits x hx := by
    have hx : MapLand.WF v x := hx
    exact fits_i32.2 hx.clumpiness
  wf x hx y hy := by
    have hx : MapLand.WF v x := hx
    exact { hx with clumpiness := fits_i32.1 hy }
  splits x hx := by
    have hx : MapLand.WF v x := hx
    refine ⟨fun i => .int 4 true i, .int _ _, ?_⟩
    show Splits _ (fun y => MapLand.layout v { x with clumpiness := y }) _
    simp only [MapLand.layout]
    walk Splits.here

theorem MapLand.intFields (v : Version) : ∀ f ∈ Node.intFields v (.record .MapLand), IntField.OK (.record .MapLand) v f :=
  forall_cons (MapLand.intField_land_id v) (forall_cons (MapLand.intField_terrain v) (forall_cons (MapLand.intField_land_spacing v) (forall_cons (MapLand.intField_base_size v) (forall_cons (MapLand.intField_zone v) (forall_cons (MapLand.intField_placement_type v) (forall_cons (MapLand.intField_padding_1 v) (forall_cons (MapLand.intField_base_x v) (forall_cons (MapLand.intField_base_y v) (forall_cons (MapLand.intField_land_proportion v) (forall_cons (MapLand.intField_by_player_flag v) (forall_cons (MapLand.intField_padding_2 v) (forall_cons (MapLand.intField_start_area_radius v) (forall_cons (MapLand.intField_terrain_edge_fade v) (forall_cons (MapLand.intField_clumpiness v) (forall_nil)))))))))))))))

theorem MapElevation.intField_proportion (v : Version) : IntField.OK (.record .MapElevation) v ⟨"proportion", 4, true, fun (x : Genie.MapElevation) => x.proportion, fun x y => { x with proportion := y }⟩ where
  self _ := rfl
  get_set _ _ := rfl
  fits x hx := by
    have hx : MapElevation.WF v x := hx
    exact fits_i32.2 hx.proportion
  wf x hx y hy := by
    have hx : MapElevation.WF v x := hx
    exact { hx with proportion := fits_i32.1 hy }
  splits x hx := by
    have hx : MapElevation.WF v x := hx
    refine ⟨fun i => .int 4 true i, .int _ _, ?_⟩
    show Splits _ (fun y => MapElevation.layout v { x with proportion := y }) _
    simp only [MapElevation.layout]
    walk Splits.here

theorem MapElevation.intField_terrain (v : Version) : IntField.OK (.record .MapElevation) v ⟨"terrain", 4, true, fun (x : Genie.MapElevation) => x.terrain, fun x y => { x with terrain := y }⟩ where
  self _ := rfl
  get_set _ _ := rfl
  fits x hx := by
    have hx : MapElevation.WF v x := hx
    exact fits_i32.2 hx.terrain
  wf x hx y hy := by
    have hx : MapElevation.WF v x := hx
    exact { hx with terrain := fits_i32.1 hy }
  splits x hx := by
    have hx : MapElevation.WF v x := hx
    refine ⟨fun i => .int 4 true i, .int _ _, ?_⟩
    show Splits _ (fun y => MapElevation.layout v { x with terrain := y }) _
    simp only [MapElevation.layout]
    walk Splits.here

theorem MapElevation.intField_clump_count (v : Version) : IntField.OK (.record .MapElevation) v ⟨"clump_count", 4, true, fun (x : Genie.MapElevation) => x.clump_count, fun x y => { x with clump_count := y }⟩ where
  self _ := rfl
  get_set _ _ := rfl
  fits x hx := by
    have hx : MapElevation.WF v x := hx
    exact fits_i32.2 hx.clump_count
  wf x hx y hy := by
    have hx : MapElevation.WF v x := hx
    exact { hx with clump_count := fits_i32.1 hy }
  splits x hx := by
    have hx : MapElevation.WF v x := hx
    refine ⟨fun i => .int 4 true i, .int _ _, ?_⟩
    show Splits _ (fun y => MapElevation.layout v { x with clump_count := y }) _
    simp only [MapElevation.layout]
    walk Splits.here

theorem MapElevation.intField_base_terrain (v : Version) : IntField.OK (.record .MapElevation) v ⟨"base_terrain", 4, true, fun (x : Genie.MapElevation) => x.base_terrain, fun x y => { x with base_terrain := y }⟩ where
  self _ := rfl
  get_set _ _ := rfl
  fits x hx := by
    have hx : MapElevation.WF v x := hx
    exact fits_i32.2 hx.base_terrain
  wf x hx y hy := by
    have hx : MapElevation.WF v x := hx
    exact { hx with base_terrain := fits_i32.1 hy }
  splits x hx := by
    have hx : MapElevation.WF v x := hx
    refine ⟨fun i => .int 4 true i, .int _ _, ?_⟩
    show Splits _ (fun y => MapElevation.layout v { x with base_terrain := y }) _
    simp only [MapElevation.layout]
    walk Splits.here

theorem MapElevation.intField_base_elevation (v : Version) : IntField.OK (.record .MapElevation) v ⟨"base_elevation", 4, true, fun (x : Genie.MapElevation) => x.base_elevation, fun x y => { x with base_elevation := y }⟩ where
  self _ := rfl
  get_set _ _ := rfl
  fits x hx := by
    have hx : MapElevation.WF v x := hx
    exact fits_i32.2 hx.base_elevation
  wf x hx y hy := by
    have hx : MapElevation.WF v x := hx
    exact { hx with base_elevation := fits_i32.1 hy }
  splits x hx := by
    have hx : MapElevation.WF v x := hx
    refine ⟨fun i => .int 4 true i, .int _ _, ?_⟩
    show Splits _ (fun y => MapElevation.layout v { x with base_elevation := y }) _
    simp only [MapElevation.layout]
    walk Splits.here

theorem MapElevation.intField_tile_spacing (v : Version) : IntField.OK (.record .MapElevation) v ⟨"tile_spacing", 4, true, fun (x : Genie.MapElevation) => x.tile_spacing, fun x y => { x with tile_spacing := y }⟩ where
  self _ := rfl
  get_set _ _ := rfl
  fits x hx := by
    have hx : MapElevation.WF v x := hx
    exact fits_i32.2 hx.tile_spacing
  wf x hx y hy := by
    have hx : MapElevation.WF v x := hx
    exact { hx with tile_spacing := fits_i32.1 hy }
  splits x hx := by
    have hx : MapElevation.WF v x := hx
    refine ⟨fun i => .int 4 true i, .int _ _, ?_⟩
    show Splits _ (fun y => MapElevation.layout v { x with tile_spacing := y }) _
    simp only [MapElevation.layout]
    walk Splits.here

theorem MapElevation.intFields (v : Version) : ∀ f ∈ Node.intFields v (.record .MapElevation), IntField.OK (.record .MapElevation) v f :=
  forall_cons (MapElevation.intField_proportion v) (forall_cons (MapElevation.intField_terrain v) (forall_cons (MapElevation.intField_clump_count v) (forall_cons (MapElevation.intField_base_terrain v) (forall_cons (MapElevation.intField_base_elevation v) (forall_cons (MapElevation.intField_tile_spacing v) (forall_nil))))))

theorem MapInfo.intField_map_id (v : Version) : IntField.OK (.record .MapInfo) v ⟨"map_id", 4, true, fun (x : Genie.MapInfo) => x.map_id, fun x y => { x with map_id := y }⟩ where
  self _ := rfl
  get_set _ _ := rfl
  fits x hx := by
    have hx : MapInfo.WF v x := hx
    exact fits_i32.2 hx.map_id
  wf x hx y hy := by
    have hx : MapInfo.WF v x := hx
    exact { hx with map_id := fits_i32.1 hy }
  splits x hx := by
    have hx : MapInfo.WF v x := hx
    refine ⟨fun i => .int 4 true i, .int _ _, ?_⟩
    show Splits _ (fun y => MapInfo.layout v { x with map_id := y }) _
    simp only [MapInfo.layout]
    walk Splits.here

theorem MapInfo.intField_border_south_west (v : Version) : IntField.OK (.record .MapInfo) v ⟨"border_south_west", 4, true, fun (x : Genie.MapInfo) => x.border_south_west, fun x y => { x with border_south_west := y }⟩ where
  self _ := rfl
  get_set _ _ := rfl
  fits x hx := by
    have hx : MapInfo.WF v x := hx
    exact fits_i32.2 hx.border_south_west
  wf x hx y hy := by
    have hx : MapInfo.WF v x := hx
    exact { hx with border_south_west := fits_i32.1 hy }
  splits x hx := by
    have hx : MapInfo.WF v x := hx
    refine ⟨fun i => .int 4 true i, .int _ _, ?_⟩
    show Splits _ (fun y => MapInfo.layout v { x with border_south_west := y }) _
    simp only [MapInfo.layout]
    walk Splits.here

theorem MapInfo.intField_border_north_west (v : Version) : IntField.OK (.record .MapInfo) v ⟨"border_north_west", 4, true, fun (x : Genie.MapInfo) => x.border_north_west, fun x y => { x with border_north_west := y }⟩ where
  self _ := rfl
  get_set _ _ := rfl
  fits x hx := by
    have hx : MapInfo.WF v x := hx
    exact fits_i32.2 hx.border_north_west
  wf x hx y hy := by
    have hx : MapInfo.WF v x := hx
    exact { hx with border_north_west := fits_i32.1 hy }
  splits x hx := by
    have hx : MapInfo.WF v x := hx
    refine ⟨fun i => .int 4 true i, .int _ _, ?_⟩
    show Splits _ (fun y => MapInfo.layout v { x with border_north_west := y }) _
    simp only [MapInfo.layout]
    walk Splits.here

theorem MapInfo.intField_border_north_east (v : Version) : IntField.OK (.record .MapInfo) v ⟨"border_north_east", 4, true, fun (x : Genie.MapInfo) => x.border_north_east, fun x y => { x with border_north_east := y }⟩ where
  self _ := rfl
  get_set _ _ := rfl
  fits x hx := by
    have hx : MapInfo.WF v x := hx
    exact fits_i32.2 hx.border_north_east
  wf x hx y hy := by
    have hx : MapInfo.WF v x := hx
    exact { hx with border_north_east := fits_i32.1 hy }
  splits x hx := by
    have hx : MapInfo.WF v x := hx
    refine ⟨fun i => .int 4 true i, .int _ _, ?_⟩
    show Splits _ (fun y => MapInfo.layout v { x with border_north_east := y }) _
    simp only [MapInfo.layout]
    walk Splits.here

theorem MapInfo.intField_border_south_east (v : Version) : IntField.OK (.record .MapInfo) v ⟨"border_south_east", 4, true, fun (x : Genie.MapInfo) => x.border_south_east, fun x y => { x with border_south_east := y }⟩ where
  self _ := rfl
  get_set _ _ := rfl
  fits x hx := by
    have hx : MapInfo.WF v x := hx
    exact fits_i32.2 hx.border_south_east
  wf x hx y hy := by
    have hx : MapInfo.WF v x := hx
    exact { hx with border_south_east := fits_i32.1 hy }
  splits x hx := by
    have hx : MapInfo.WF v x := hx
    refine ⟨fun i => .int 4 true i, .int _ _, ?_⟩
    show Splits _ (fun y => MapInfo.layout v { x with border_south_east := y }) _
    simp only [MapInfo.layout]
    walk Splits.here

theorem MapInfo.intField_border_usage (v : Version) : IntField.OK (.record .MapInfo) v ⟨"border_usage", 4, true, fun (x : Genie.MapInfo) => x.border_usage, fun x y => { x with border_usage := y }⟩ where
  self _ := rfl
  get_set _ _ := rfl
  fits x hx := by
    have hx : MapInfo.WF v x := hx
    exact fits_i32.2 hx.border_usage
  wf x hx y hy := by
    have hx : MapInfo.WF v x := hx
    exact { hx with border_usage := fits_i32.1 hy }
  splits x hx := by
    have hx : MapInfo.WF v x := hx
    refine ⟨fun i => .int 4 true i, .int _ _, ?_⟩
    show Splits _ (fun y => MapInfo.layout v { x with border_usage := y }) _
    simp only [MapInfo.layout]
    walk Splits.here

theorem MapInfo.intField_water_shape (v : Version) : IntField.OK (.record .MapInfo) v ⟨"water_shape", 4, true, fun (x : Genie.MapInfo) => x.water_shape, fun x y => { x with water_shape := y }⟩ where
  self _ := rfl
  get_set _ _ := rfl
  fits x hx := by
    have hx : MapInfo.WF v x := hx
    exact fits_i32.2 hx.water_shape
  wf x hx y hy := by
    have hx : MapInfo.WF v x := hx
    exact { hx with water_shape := fits_i32.1 hy }
  splits x hx := by
    have hx : MapInfo.WF v x := hx
    refine ⟨fun i => .int 4 true i, .int _ _, ?_⟩
    show Splits _ (fun y => MapInfo.layout v { x with water_shape := y }) _
    simp only [MapInfo.layout]
    walk Splits.here

theorem MapInfo.intField_base_terrain (v : Version) : IntField.OK (.record .MapInfo) v ⟨"base_terrain", 4, true, fun (x : Genie.MapInfo) => x.base_terrain, fun x y => { x with base_terrain := y }⟩ where
  self _ := rfl
  get_set _ _ := rfl
  fits x hx := by
    have hx : MapInfo.WF v x := hx
    exact fits_i32.2 hx.base_terrain
  wf x hx y hy := by
    have hx : MapInfo.WF v x := hx
    exact { hx with base_terrain := fits_i32.1 hy }
  splits x hx := by
    have hx : MapInfo.WF v x := hx
    refine ⟨fun i => .int 4 true i, .int _ _, ?_⟩
    show Splits _ (fun y => MapInfo.layout v { x with base_terrain := y }) _
    simp only [MapInfo.layout]
    walk Splits.here

theorem MapInfo.intField_land_coverage (v : Version) : IntField.OK (.record .MapInfo) v ⟨"land_coverage", 4, true, fun (x : Genie.MapInfo) => x.land_coverage, fun x y => { x with land_coverage := y }⟩ where
  self _ := rfl
  get_set _ _ := rfl
  fits x hx := by
    have hx : MapInfo.WF v x := hx
    exact fits_i32.2 hx.land_coverage
  wf x hx y hy := by
    have hx : MapInfo.WF v x := hx
    exact { hx with land_coverage := fits_i32.1 hy }
  splits x hx := by
    have hx : MapInfo.WF v x := hx
    refine ⟨fun i => .int 4 true i, .int _ _, ?_⟩
    show Splits _ (fun y => MapInfo.layout v { x with land_coverage := y }) _
    simp only [MapInfo.layout]
    walk Splits.here

theorem MapInfo.intField_unused_id (v : Version) : IntField.OK (.record .MapInfo) v ⟨"unused_id", 4, true, fun (x : Genie.MapInfo) => x.unused_id, fun x y => { x with unused_id := y }⟩ where
  self _ := rfl
  get_set _ _ := rfl
  fits x hx := by
    have hx : MapInfo.WF v x := hx
    exact fits_i32.2 hx.unused_id
  wf x hx y hy := by
    have hx : MapInfo.WF v x := hx
    exact { hx with unused_id := fits_i32.1 hy }
  splits x hx := by
    have hx : MapInfo.WF v x := hx
    refine ⟨fun i => .int 4 true i, .int _ _, ?_⟩
    show Splits _ (fun y => MapInfo.layout v { x with unused_id := y }) _
    simp only [MapInfo.layout]
    walk Splits.here

theorem MapInfo.intField_map_lands_ptr (v : Version) : IntField.OK (.record .MapInfo) v ⟨"map_lands_ptr", 4, true, fun (x : Genie.MapInfo) => x.map_lands_ptr, fun x y => { x with map_lands_ptr := y }⟩ where
  self _ := rfl
  get_set _ _ := rfl
  fits x hx := by
    have hx : MapInfo.WF v x := hx
    exact fits_i32.2 hx.map_lands_ptr
  wf x hx y hy := by
    have hx : MapInfo.WF v x := hx
    exact { hx with map_lands_ptr := fits_i32.1 hy }
  splits x hx := by
    have hx : MapInfo.WF v x := hx
    refine ⟨fun i => .int 4 true i, .int _ _, ?_⟩
    show Splits _ (fun y => MapInfo.layout v { x with map_lands_ptr := y }) _
    simp only [MapInfo.layout]
    walk Splits.here

theorem MapInfo.intField_map_terrains_ptr (v : Version) : IntField.OK (.record .MapInfo) v ⟨"map_terrains_ptr", 4, true, fun (x : Genie.MapInfo) => x.map_terrains_ptr, fun x y => { x with map_terrains_ptr := y }⟩ where
  self _ := rfl
  get_set _ _ := rfl
  fits x hx := by
    have hx : MapInfo.WF v x := hx
    exact fits_i32.2 hx.map_terrains_ptr
  wf x hx y hy := by
    have hx : MapInfo.WF v x := hx
    exact { hx with map_terrains_ptr := fits_i32.1 hy }
  splits x hx := by
    have hx : MapInfo.WF v x := hx
    refine ⟨fun i => .int 4 true i, .int _ _, ?_⟩
    show Splits _ (fun y => MapInfo.layout v { x with map_terrains_ptr := y }) _
    simp only [MapInfo.layout]
    walk Splits.here

theorem MapInfo.intField_map_units_ptr (v : Version) : IntField.OK (.record .MapInfo) v ⟨"map_units_ptr", 4, true, fun (x : Genie.MapInfo) => x.map_units_ptr, fun x y => { x with map_units_ptr := y }⟩ where
  self _ := rfl
  get_set _ _ := rfl
  fits x hx := by
    have hx : MapInfo.WF v x := hx
    exact fits_i32.2 hx.map_units_ptr
  wf x hx y hy := by
    have hx : MapInfo.WF v x := hx
    exact { hx with map_units_ptr := fits_i32.1 hy }
  splits x hx := by
    have hx : MapInfo.WF v x := hx
    refine ⟨fun i => .int 4 true i, .int _ _, ?_⟩
    show Splits _ (fun y => MapInfo.layout v { x with map_units_ptr := y }) _
    simp only [MapInfo.layout]
    walk Splits.here

theorem MapInfo.intField_map_elevations_ptr (v : Version) : IntField.OK (.record .MapInfo) v ⟨"map_elevations_ptr", 4, true, fun (x : Genie.MapInfo) => x.map_elevations_ptr, fun x y => { x with map_elevations_ptr := y }⟩ where
  self _ := rfl
  get_set _ _ := rfl
  fits x hx := by
    have hx : MapInfo.WF v x := hx
    exact fits_i32.2 hx.map_elevations_ptr
  wf x hx y hy := by
    have hx : MapInfo.WF v x := hx
    exact { hx with map_elevations_ptr := fits_i32.1 hy }
  splits x hx := by
    have hx : MapInfo.WF v x := hx
    refine ⟨fun i => .int 4 true i, .int _ _, ?_⟩
    show Splits _ (fun y => MapInfo.layout v { x with map_elevations_ptr := y }) _
    simp only [MapInfo.layout]
    walk Splits.here

theorem MapInfo.intFields (v : Version) : ∀ f ∈ Node.intFields v (.record .MapInfo), IntField.OK (.record .MapInfo) v f :=
  forall_cons (MapInfo.intField_map_id v) (forall_cons (MapInfo.intField_border_south_west v) (forall_cons (MapInfo.intField_border_north_west v) (forall_cons (MapInfo.intField_border_north_east v) (forall_cons (MapInfo.intField_border_south_east v) (forall_cons (MapInfo.intField_border_usage v) (forall_cons (MapInfo.intField_water_shape v) (forall_cons (MapInfo.intField_base_terrain v) (forall_cons (MapInfo.intField_land_coverage v) (forall_cons (MapInfo.intField_unused_id v) (forall_cons (MapInfo.intField_map_lands_ptr v) (forall_cons (MapInfo.intField_map_terrains_ptr v) (forall_cons (MapInfo.intField_map_units_ptr v) (forall_cons (MapInfo.intField_map_elevations_ptr v) (forall_nil))))))))))))))

theorem RandomMaps.intField_random_maps_ptr (v : Version) : IntField.OK (.record .RandomMaps) v ⟨"random_maps_ptr", 4, true, fun (x : Genie.RandomMaps) => x.random_maps_ptr, fun x y => { x with random_maps_ptr := y }⟩ where
  self _ := rfl
  get_set _ _ := rfl
  fits x hx := by
    have hx : RandomMaps.WF v x := hx
    exact fits_i32.2 hx.random_maps_ptr
  wf x hx y hy := by
    have hx : RandomMaps.WF v x := hx
    exact { hx with random_maps_ptr := fits_i32.1 hy }
  splits x hx := by
    have hx : RandomMaps.WF v x := hx
    refine ⟨fun i => .int 4 true i, .int _ _, ?_⟩
    show Splits _ (fun y => RandomMaps.layout v { x with random_maps_ptr := y }) _
    refine Splits.tail (a := requires (x.map_info_1.length = x.map_info_2.length) .assertionError) (.tail (a := countU32 x.map_info_1) ?_)
    dsimp only
    exact Splits.head .here

theorem RandomMaps.intFields (v : Version) : ∀ f ∈ Node.intFields v (.record .RandomMaps), IntField.OK (.record .RandomMaps) v f :=
  forall_cons (RandomMaps.intField_random_maps_ptr v) (forall_nil)

theorem ResearchResourceCost.intField_type (v : Version) : IntField.OK (.record .ResearchResourceCost) v ⟨"type", 2, true, fun (x : Genie.ResearchResourceCost) => x.type, fun x y => { x with type := y }⟩ where
  self _ := rfl
  get_set _ _ := rfl
  fits x hx := by
    have hx : ResearchResourceCost.WF v x := hx
    exact fits_i16.2 hx.type
  wf x hx y hy := by
    have hx : ResearchResourceCost.WF v x := hx
    exact { hx with type := fits_i16.1 hy }
  splits x hx := by
    have hx : ResearchResourceCost.WF v x := hx
    refine ⟨fun i => .int 2 true i, .int _ _, ?_⟩
    show Splits _ (fun y => ResearchResourceCost.layout v { x with type := y }) _
    simp only [ResearchResourceCost.layout]
    walk Splits.here

theorem ResearchResourceCost.intField_amount (v : Version) : IntField.OK (.record .ResearchResourceCost) v ⟨"amount", 2, true, fun (x : Genie.ResearchResourceCost) => x.amount, fun x y => { x with amount := y }⟩ where
  self _ := rfl
  get_set _ _ := rfl
  fits x hx := by
    have hx : ResearchResourceCost.WF v x := hx
    exact fits_i16.2 hx.amount
  wf x hx y hy := by
    have hx : ResearchResourceCost.WF v x := hx
    exact { hx with amount := fits_i16.1 hy }
  splits x hx := by
    have hx : ResearchResourceCost.WF v x := hx
    refine ⟨fun i => .int 2 true i, .int _ _, ?_⟩
    show Splits _ (fun y => ResearchResourceCost.layout v { x with amount := y }) _
    simp only [ResearchResourceCost.layout]
    walk Splits.here

theorem ResearchResourceCost.intField_flag (v : Version) : IntField.OK (.record .ResearchResourceCost) v ⟨"flag", 1, false, fun (x : Genie.ResearchResourceCost) => x.flag, fun x y => { x with flag := y }⟩ where
  self _ := rfl
  get_set _ _ := rfl
  fits x hx := by
    have hx : ResearchResourceCost.WF v x := hx
    exact fits_u8.2 hx.flag
  wf x hx y hy := by
    have hx : ResearchResourceCost.WF v x := hx
    exact { hx with flag := fits_u8.1 hy }
  splits x hx := by
    have hx : ResearchResourceCost.WF v x := hx
    refine ⟨fun i => .int 1 false i, .int _ _, ?_⟩
    show Splits _ (fun y => ResearchResourceCost.layout v { x with flag := y }) _
    simp only [ResearchResourceCost.layout]
    walk Splits.here

theorem ResearchResourceCost.intFields (v : Version) : ∀ f ∈ Node.intFields v (.record .ResearchResourceCost), IntField.OK (.record .ResearchResourceCost) v f :=
  forall_cons (ResearchResourceCost.intField_type v) (forall_cons (ResearchResourceCost.intField_amount v) (forall_cons (ResearchResourceCost.intField_flag v) (forall_nil)))

theorem ResearchLocation.intField_location_id (v : Version) : IntField.OK (.record .ResearchLocation) v ⟨"location_id", 2, true, fun (x : Genie.ResearchLocation) => x.location_id, fun x y => { x with location_id := y }⟩ where
  self _ := rfl
  get_set _ _ := rfl
  fits x hx := by
    have hx : ResearchLocation.WF v x := hx
    exact fits_i16.2 hx.location_id
  wf x hx y hy := by
    have hx : ResearchLocation.WF v x := hx
    exact { hx with location_id := fits_i16.1 hy }
  splits x hx := by
    have hx : ResearchLocation.WF v x := hx
    refine ⟨fun i => .int 2 true i, .int _ _, ?_⟩
    show Splits _ (fun y => ResearchLocation.layout v { x with location_id := y }) _
    simp only [ResearchLocation.layout]
    walk Splits.here

theorem ResearchLocation.intField_research_time (v : Version) : IntField.OK (.record .ResearchLocation) v ⟨"research_time", 2, true, fun (x : Genie.ResearchLocation) => x.research_time, fun x y => { x with research_time := y }⟩ where
  self _ := rfl
  get_set _ _ := rfl
  fits x hx := by
    have hx : ResearchLocation.WF v x := hx
    exact fits_i16.2 hx.research_time
  wf x hx y hy := by
    have hx : ResearchLocation.WF v x := hx
    exact { hx with research_time := fits_i16.1 hy }
  splits x hx := by
    have hx : ResearchLocation.WF v x := hx
    refine ⟨fun i => .int 2 true i, .int _ _, ?_⟩
    show Splits _ (fun y => ResearchLocation.layout v { x with research_time := y }) _
    simp only [ResearchLocation.layout]
    walk Splits.here

theorem ResearchLocation.intField_button_id (v : Version) : IntField.OK (.record .ResearchLocation) v ⟨"button_id", 1, false, fun (x : Genie.ResearchLocation) => x.button_id, fun x y => { x with button_id := y }⟩ where
  self _ := rfl
  get_set _ _ := rfl
  fits x hx := by
    have hx : ResearchLocation.WF v x := hx
    exact fits_u8.2 hx.button_id
  wf x hx y hy := by
    have hx : ResearchLocation.WF v x := hx
    exact { hx with button_id := fits_u8.1 hy }
  splits x hx := by
    have hx : ResearchLocation.WF v x := hx
    refine ⟨fun i => .int 1 false i, .int _ _, ?_⟩
    show Splits _ (fun y => ResearchLocation.layout v { x with button_id := y }) _
    simp only [ResearchLocation.layout]
    walk Splits.here

theorem ResearchLocation.intField_hot_key_id (v : Version) : IntField.OK (.record .ResearchLocation) v ⟨"hot_key_id", 4, true, fun (x : Genie.ResearchLocation) => x.hot_key_id, fun x y => { x with hot_key_id := y }⟩ where
  self _ := rfl
  get_set _ _ := rfl
  fits x hx := by
    have hx : ResearchLocation.WF v x := hx
    exact fits_i32.2 hx.hot_key_id
  wf x hx y hy := by
    have hx : ResearchLocation.WF v x := hx
    exact { hx with hot_key_id := fits_i32.1 hy }
  splits x hx := by
    have hx : ResearchLocation.WF v x := hx
    refine ⟨fun i => .int 4 true i, .int _ _, ?_⟩
    show Splits _ (fun y => ResearchLocation.layout v { x with hot_key_id := y }) _
    simp only [ResearchLocation.layout]
    walk Splits.here

theorem ResearchLocation.intFields (v : Version) : ∀ f ∈ Node.intFields v (.record .ResearchLocation), IntField.OK (.record .ResearchLocation) v f :=
  forall_cons (ResearchLocation.intField_location_id v) (forall_cons (ResearchLocation.intField_research_time v) (forall_cons (ResearchLocation.intField_button_id v) (forall_cons (ResearchLocation.intField_hot_key_id v) (forall_nil))))

theorem Tech.intField_required_tech_count (v : Version) : IntField.OK (.record .Tech) v ⟨"required_tech_count", 2, true, fun (x : Genie.Tech) => x.required_tech_count, fun x y => { x with required_tech_count := y }⟩ where
  self _ := rfl
  get_set _ _ := rfl
  fits x hx := by
    have hx : Tech.WF v x := hx
    exact fits_i16.2 hx.required_tech_count
  wf x hx y hy := by
    have hx : Tech.WF v x := hx
    exact { hx with required_tech_count := fits_i16.1 hy }
  splits x hx := by
    have hx : Tech.WF v x := hx
    refine ⟨fun i => .int 2 true i, .int _ _, ?_⟩
    show Splits _ (fun y => Tech.layout v { x with required_tech_count := y }) _
    simp only [Tech.layout, Tech.location84]
    split
    · walk Splits.here
    · walk Splits.here

theorem Tech.intField_civ (v : Version) : IntField.OK (.record .Tech) v ⟨"civ", 2, true, fun (x : Genie.Tech) => x.civ, fun x y => { x with civ := y }⟩ where
  self _ := rfl
  get_set _ _ := rfl
  fits x hx := by
    have hx : Tech.WF v x := hx
    exact fits_i16.2 hx.civ
  wf x hx y hy := by
    have hx : Tech.WF v x := hx
    exact { hx with civ := fits_i16.1 hy }
  splits x hx := by
    have hx : Tech.WF v x := hx
    refine ⟨fun i => .int 2 true i, .int _ _, ?_⟩
    show Splits _ (fun y => Tech.layout v { x with civ := y }) _
    simp only [Tech.layout, Tech.location84]
    split
    · walk Splits.here
    · walk Splits.here

theorem Tech.intField_full_tech_mode (v : Version) : IntField.OK (.record .Tech) v ⟨"full_tech_mode", 2, true, fun (x : Genie.Tech) => x.full_tech_mode, fun x y => { x with full_tech_mode := y }⟩ where
  self _ := rfl
  get_set _ _ := rfl
  fits x hx := by
    have hx : Tech.WF v x := hx
    exact fits_i16.2 hx.full_tech_mode
  wf x hx y hy := by
    have hx : Tech.WF v x := hx
    exact { hx with full_tech_mode := fits_i16.1 hy }
  splits x hx := by
    have hx : Tech.WF v x := hx
    refine ⟨fun i => .int 2 true i, .int _ _, ?_⟩
    show Splits _ (fun y => Tech.layout v { x with full_tech_mode := y }) _
    simp only [Tech.layout, Tech.location84]
    split
    · walk Splits.here
    · walk Splits.here

theorem Tech.intField_language_dll_name (v : Version) : IntField.OK (.record .Tech) v ⟨"language_dll_name", 4, true, fun (x : Genie.Tech) => x.language_dll_name, fun x y => { x with language_dll_name := y }⟩ where
  self _ := rfl
  get_set _ _ := rfl
  fits x hx := by
    have hx : Tech.WF v x := hx
    exact fits_i32.2 hx.language_dll_name
  wf x hx y hy := by
    have hx : Tech.WF v x := hx
    exact { hx with language_dll_name := fits_i32.1 hy }
  splits x hx := by
    have hx : Tech.WF v x := hx
    refine ⟨fun i => .int 4 true i, .int _ _, ?_⟩
    show Splits _ (fun y => Tech.layout v { x with language_dll_name := y }) _
    simp only [Tech.layout, Tech.location84]
    split
    · walk Splits.here
    · walk Splits.here

theorem Tech.intField_language_dll_description (v : Version) : IntField.OK (.record .Tech) v ⟨"language_dll_description", 4, true, fun (x : Genie.Tech) => x.language_dll_description, fun x y => { x with language_dll_description := y }⟩ where
  self _ := rfl
  get_set _ _ := rfl
  fits x hx := by
    have hx : Tech.WF v x := hx
    exact fits_i32.2 hx.language_dll_description
  wf x hx y hy := by
    have hx : Tech.WF v x := hx
    exact { hx with language_dll_description := fits_i32.1 hy }
  splits x hx := by
    have hx : Tech.WF v x := hx
    refine ⟨fun i => .int 4 true i, .int _ _, ?_⟩
    show Splits _ (fun y => Tech.layout v { x with language_dll_description := y }) _
    simp only [Tech.layout, Tech.location84]
    split
    · walk Splits.here
    · walk Splits.here

theorem Tech.intField_effect_id (v : Version) : IntField.OK (.record .Tech) v ⟨"effect_id", 2, true, fun (x : Genie.Tech) => x.effect_id, fun x y => { x with effect_id := y }⟩ where
  self _ := rfl
  get_set _ _ := rfl
  fits x hx := by
    have hx : Tech.WF v x := hx
    exact fits_i16.2 hx.effect_id
  wf x hx y hy := by
    have hx : Tech.WF v x := hx
    exact { hx with effect_id := fits_i16.1 hy }
  splits x hx := by
    have hx : Tech.WF v x := hx
    refine ⟨fun i => .int 2 true i, .int _ _, ?_⟩
    show Splits _ (fun y => Tech.layout v { x with effect_id := y }) _
    simp only [Tech.layout, Tech.location84]
    split
    · walk Splits.here
    · walk Splits.here

theorem Tech.intField_type (v : Version) : IntField.OK (.record .Tech) v ⟨"type", 2, true, fun (x : Genie.Tech) => x.type, fun x y => { x with type := y }⟩ where
  self _ := rfl
  get_set _ _ := rfl
  fits x hx := by
    have hx : Tech.WF v x := hx
    exact fits_i16.2 hx.type
  wf x hx y hy := by
    have hx : Tech.WF v x := hx
    exact { hx with type := fits_i16.1 hy }
  splits x hx := by
    have hx : Tech.WF v x := hx
    refine ⟨fun i => .int 2 true i, .int _ _, ?_⟩
    show Splits _ (fun y => Tech.layout v { x with type := y }) _
    simp only [Tech.layout, Tech.location84]
    split
    · walk Splits.here
    · walk Splits.here

theorem Tech.intField_icon_id (v : Version) : IntField.OK (.record .Tech) v ⟨"icon_id", 2, true, fun (x : Genie.Tech) => x.icon_id, fun x y => { x with icon_id := y }⟩ where
  self _ := rfl
  get_set _ _ := rfl
  fits x hx := by
    have hx : Tech.WF v x := hx
    exact fits_i16.2 hx.icon_id
  wf x hx y hy := by
    have hx : Tech.WF v x := hx
    exact { hx with icon_id := fits_i16.1 hy }
  splits x hx := by
    have hx : Tech.WF v x := hx
    refine ⟨fun i => .int 2 true i, .int _ _, ?_⟩
    show Splits _ (fun y => Tech.layout v { x with icon_id := y }) _
    simp only [Tech.layout, Tech.location84]
    split
    · walk Splits.here
    · walk Splits.here

theorem Tech.intField_language_dll_help (v : Version) : IntField.OK (.record .Tech) v ⟨"language_dll_help", 4, true, fun (x : Genie.Tech) => x.language_dll_help, fun x y => { x with language_dll_help := y }⟩ where
  self _ := rfl
  get_set _ _ := rfl
  fits x hx := by
    have hx : Tech.WF v x := hx
    exact fits_i32.2 hx.language_dll_help
  wf x hx y hy := by
    have hx : Tech.WF v x := hx
    exact { hx with language_dll_help := fits_i32.1 hy }
  splits x hx := by
    have hx : Tech.WF v x := hx
    refine ⟨fun i => .int 4 true i, .int _ _, ?_⟩
    show Splits _ (fun y => Tech.layout v { x with language_dll_help := y }) _
    simp only [Tech.layout, Tech.location84]
    split
    · walk Splits.here
    · walk Splits.here

theorem Tech.intField_language_dll_tech_tree (v : Version) : IntField.OK (.record .Tech) v ⟨"language_dll_tech_tree", 4, true, fun (x : Genie.Tech) => x.language_dll_tech_tree, fun x y => { x with language_dll_tech_tree := y }⟩ where
  self _ := rfl
  get_set _ _ := rfl
  fits x hx := by
    have hx : Tech.WF v x := hx
    exact fits_i32.2 hx.language_dll_tech_tree
  wf x hx y hy := by
    have hx : Tech.WF v x := hx
    exact { hx with language_dll_tech_tree := fits_i32.1 hy }
  splits x hx := by
    have hx : Tech.WF v x := hx
    refine ⟨fun i => .int 4 true i, .int _ _, ?_⟩
    show Splits _ (fun y => Tech.layout v { x with language_dll_tech_tree := y }) _
    simp only [Tech.layout, Tech.location84]
    split
    · walk Splits.here
    · walk Splits.here

theorem Tech.intField_repeatable (v : Version) : IntField.OK (.record .Tech) v ⟨"repeatable", 1, false, fun (x : Genie.Tech) => x.repeatable, fun x y => { x with repeatable := y }⟩ where
  self _ := rfl
  get_set _ _ := rfl
  fits x hx := by
    have hx : Tech.WF v x := hx
    exact fits_u8.2 hx.repeatable
  wf x hx y hy := by
    have hx : Tech.WF v x := hx
    exact { hx with repeatable := fits_u8.1 hy }
  splits x hx := by
    have hx : Tech.WF v x := hx
    refine ⟨fun i => .int 1 false i, .int _ _, ?_⟩
    show Splits _ (fun y => Tech.layout v { x with repeatable := y }) _
    simp only [Tech.layout, Tech.location84]
    split
    · walk Splits.here
    · walk Splits.here

theorem Tech.intFields (v : Version) : ∀ f ∈ Node.intFields v (.record .Tech), IntField.OK (.record .Tech) v f :=
  forall_cons (Tech.intField_required_tech_count v) (forall_cons (Tech.intField_civ v) (forall_cons (Tech.intField_full_tech_mode v) (forall_cons (Tech.intField_language_dll_name v) (forall_cons (Tech.intField_language_dll_description v) (forall_cons (Tech.intField_effect_id v) (forall_cons (Tech.intField_type v) (forall_cons (Tech.intField_icon_id v) (forall_cons (Tech.intField_language_dll_help v) (forall_cons (Tech.intField_language_dll_tech_tree v) (forall_cons (Tech.intField_repeatable v) (forall_nil)))))))))))

theorem Common.intField_slots_used (v : Version) : IntField.OK (.record .Common) v ⟨"slots_used", 4, true, fun (x : Genie.Common) => x.slots_used, fun x y => { x with slots_used := y }⟩ where
  self _ := rfl
  get_set _ _ := rfl
  fits x hx := by
    have hx : Common.WF v x := hx
    exact fits_i32.2 hx.slots_used
  wf x hx y hy := by
    have hx : Common.WF v x := hx
    exact { hx with slots_used := fits_i32.1 hy }
  splits x hx := by
    have hx : Common.WF v x := hx
    refine ⟨fun i => .int 4 true i, .int _ _, ?_⟩
    show Splits _ (fun y => Common.layout v { x with slots_used := y }) _
    simp only [Common.layout]
    walk Splits.here

theorem Common.intFields (v : Version) : ∀ f ∈ Node.intFields v (.record .Common), IntField.OK (.record .Common) v f :=
  forall_cons (Common.intField_slots_used v) (forall_nil)

theorem TechTreeAge.intField_id (v : Version) : IntField.OK (.record .TechTreeAge) v ⟨"id", 4, true, fun (x : Genie.TechTreeAge) => x.id, fun x y => { x with id := y }⟩ where
  self _ := rfl
  get_set _ _ := rfl
  fits x hx := by
    have hx : TechTreeAge.WF v x := hx
    exact fits_i32.2 hx.id
  wf x hx y hy := by
    have hx : TechTreeAge.WF v x := hx
    exact { hx with id := fits_i32.1 hy }
  splits x hx := by
    have hx : TechTreeAge.WF v x := hx
    refine ⟨fun i => .int 4 true i, .int _ _, ?_⟩
    show Splits _ (fun y => TechTreeAge.layout v { x with id := y }) _
    simp only [TechTreeAge.layout]
    walk Splits.here

theorem TechTreeAge.intField_status (v : Version) : IntField.OK (.record .TechTreeAge) v ⟨"status", 1, false, fun (x : Genie.TechTreeAge) => x.status, fun x y => { x with status := y }⟩ where
  self _ := rfl
  get_set _ _ := rfl
  fits x hx := by
    have hx : TechTreeAge.WF v x := hx
    exact fits_u8.2 hx.status
  wf x hx y hy := by
    have hx : TechTreeAge.WF v x := hx
    exact { hx with status := fits_u8.1 hy }
  splits x hx := by
    have hx : TechTreeAge.WF v x := hx
    refine ⟨fun i => .int 1 false i, .int _ _, ?_⟩
    show Splits _ (fun y => TechTreeAge.layout v { x with status := y }) _
    simp only [TechTreeAge.layout]
    walk Splits.here

theorem TechTreeAge.intField_num_building_levels (v : Version) : IntField.OK (.record .TechTreeAge) v ⟨"num_building_levels", 1, false, fun (x : Genie.TechTreeAge) => x.num_building_levels, fun x y => { x with num_building_levels := y }⟩ where
  self _ := rfl
  get_set _ _ := rfl
  fits x hx := by
    have hx : TechTreeAge.WF v x := hx
    exact fits_u8.2 hx.num_building_levels
  wf x hx y hy := by
    have hx : TechTreeAge.WF v x := hx
    exact { hx with num_building_levels := fits_u8.1 hy }
  splits x hx := by
    have hx : TechTreeAge.WF v x := hx
    refine ⟨fun i => .int 1 false i, .int _ _, ?_⟩
    show Splits _ (fun y => TechTreeAge.layout v { x with num_building_levels := y }) _
    simp only [TechTreeAge.layout]
    walk Splits.here

theorem TechTreeAge.intField_max_age_length (v : Version) : IntField.OK (.record .TechTreeAge) v ⟨"max_age_length", 1, false, fun (x : Genie.TechTreeAge) => x.max_age_length, fun x y => { x with max_age_length := y }⟩ where
  self _ := rfl
  get_set _ _ := rfl
  fits x hx := by
    have hx : TechTreeAge.WF v x := hx
    exact fits_u8.2 hx.max_age_length
  wf x hx y hy := by
    have hx : TechTreeAge.WF v x := hx
    exact { hx with max_age_length := fits_u8.1 hy }
  splits x hx := by
    have hx : TechTreeAge.WF v x := hx
    refine ⟨fun i => .int 1 false i, .int _ _, ?_⟩
    show Splits _ (fun y => TechTreeAge.layout v { x with max_age_length := y }) _
    simp only [TechTreeAge.layout]
    walk Splits.here

theorem TechTreeAge.intField_line_mode (v : Version) : IntField.OK (.record .TechTreeAge) v ⟨"line_mode", 4, true, fun (x : Genie.TechTreeAge) => x.line_mode, fun x y => { x with line_mode := y }⟩ where
  self _ := rfl
  get_set _ _ := rfl
  fits x hx := by
    have hx : TechTreeAge.WF v x := hx
    exact fits_i32.2 hx.line_mode
  wf x hx y hy := by
    have hx : TechTreeAge.WF v x := hx
    exact { hx with line_mode := fits_i32.1 hy }
  splits x hx := by
    have hx : TechTreeAge.WF v x := hx
    refine ⟨fun i => .int 4 true i, .int _ _, ?_⟩
    show Splits _ (fun y => TechTreeAge.layout v { x with line_mode := y }) _
    simp only [TechTreeAge.layout]
    walk Splits.here

theorem TechTreeAge.intFields (v : Version) : ∀ f ∈ Node.intFields v (.record .TechTreeAge), IntField.OK (.record .TechTreeAge) v f :=
  forall_cons (TechTreeAge.intField_id v) (forall_cons (TechTreeAge.intField_status v) (forall_cons (TechTreeAge.intField_num_building_levels v) (forall_cons (TechTreeAge.intField_max_age_length v) (forall_cons (TechTreeAge.intField_line_mode v) (forall_nil)))))

theorem BuildingConnection.intField_id (v : Version) : IntField.OK (.record .BuildingConnection) v ⟨"id", 4, true, fun (x : Genie.BuildingConnection) => x.id, fun x y => { x with id := y }⟩ where
  self _ := rfl
  get_set _ _ := rfl
  fits x hx := by
    have hx : BuildingConnection.WF v x := hx
    exact fits_i32.2 hx.id
  wf x hx y hy := by
    have hx : BuildingConnection.WF v x := hx
    exact { hx with id := fits_i32.1 hy }
  splits x hx := by
    have hx : BuildingConnection.WF v x := hx
    refine ⟨fun i => .int 4 true i, .int _ _, ?_⟩
    show Splits _ (fun y => BuildingConnection.layout v { x with id := y }) _
    simp only [BuildingConnection.layout]
    walk Splits.here

theorem BuildingConnection.intField_status (v : Version) : IntField.OK (.record .BuildingConnection) v ⟨"status", 1, false, fun (x : Genie.BuildingConnection) => x.status, fun x y => { x with status := y }⟩ where
  self _ := rfl
  get_set _ _ := rfl
  fits x hx := by
    have hx : BuildingConnection.WF v x := hx
    exact fits_u8.2 hx.status
  wf x hx y hy := by
    have hx : BuildingConnection.WF v x := hx
    exact { hx with status := fits_u8.1 hy }
  splits x hx := by
    have hx : BuildingConnection.WF v x := hx
    refine ⟨fun i => .int 1 false i, .int _ _, ?_⟩
    show Splits _ (fun y => BuildingConnection.layout v { x with status := y }) _
    simp only [BuildingConnection.layout]
    walk Splits.here

theorem BuildingConnection.intField_location_in_age (v : Version) : IntField.OK (.record .BuildingConnection) v ⟨"location_in_age", 1, false, fun (x : Genie.BuildingConnection) => x.location_in_age, fun x y => { x with location_in_age := y }⟩ where
  self _ := rfl
  get_set _ _ := rfl
  fits x hx := by
    have hx : BuildingConnection.WF v x := hx
    exact fits_u8.2 hx.location_in_age
  wf x hx y hy := by
    have hx : BuildingConnection.WF v x := hx
    exact { hx with location_in_age := fits_u8.1 hy }
  splits x hx := by
    have hx : BuildingConnection.WF v x := hx
    refine ⟨fun i => .int 1 false i, .int _ _, ?_⟩
    show Splits _ (fun y => BuildingConnection.layout v { x with location_in_age := y }) _
    simp only [BuildingConnection.layout]
    walk Splits.here

theorem BuildingConnection.intField_line_mode (v : Version) : IntField.OK (.record .BuildingConnection) v ⟨"line_mode", 4, true, fun (x : Genie.BuildingConnection) => x.line_mode, fun x y => { x with line_mode := y }⟩ where
  self _ := rfl
  get_set _ _ := rfl
  fits x hx := by
    have hx : BuildingConnection.WF v x := hx
    exact fits_i32.2 hx.line_mode
  wf x hx y hy := by
    have hx : BuildingConnection.WF v x := hx
    exact { hx with line_mode := fits_i32.1 hy }
  splits x hx := by
    have hx : BuildingConnection.WF v x := hx
    refine ⟨fun i => .int 4 true i, .int _ _, ?_⟩
    show Splits _ (fun y => BuildingConnection.layout v { x with line_mode := y }) _
    simp only [BuildingConnection.layout]
    walk Splits.here

theorem BuildingConnection.intField_enabling_research (v : Version) : IntField.OK (.record .BuildingConnection) v ⟨"enabling_research", 4, true, fun (x : Genie.BuildingConnection) => x.enabling_research, fun x y => { x with enabling_research := y }⟩ where
  self _ := rfl
  get_set _ _ := rfl
  fits x hx := by
    have hx : BuildingConnection.WF v x := hx
    exact fits_i32.2 hx.enabling_research
  wf x hx y hy := by
    have hx : BuildingConnection.WF v x := hx
    exact { hx with enabling_research := fits_i32.1 hy }
  splits x hx := by
    have hx : BuildingConnection.WF v x := hx
    refine ⟨fun i => .int 4 true i, .int _ _, ?_⟩
    show Splits _ (fun y => BuildingConnection.layout v { x with enabling_research := y }) _
    simp only [BuildingConnection.layout]
    walk Splits.here

theorem BuildingConnection.intFields (v : Version) : ∀ f ∈ Node.intFields v (.record .BuildingConnection), IntField.OK (.record .BuildingConnection) v f :=
  forall_cons (BuildingConnection.intField_id v) (forall_cons (BuildingConnection.intField_status v) (forall_cons (BuildingConnection.intField_location_in_age v) (forall_cons (BuildingConnection.intField_line_mode v) (forall_cons (BuildingConnection.intField_enabling_research v) (forall_nil)))))

theorem UnitConnection.intField_id (v : Version) : IntField.OK (.record .UnitConnection) v ⟨"id", 4, true, fun (x : Genie.UnitConnection) => x.id, fun x y => { x with id := y }⟩ where
  self _ := rfl
  get_set _ _ := rfl
  fits x hx := by
    have hx : UnitConnection.WF v x := hx
    exact fits_i32.2 hx.id
  wf x hx y hy := by
    have hx : UnitConnection.WF v x := hx
    exact { hx with id := fits_i32.1 hy }
  splits x hx := by
    have hx : UnitConnection.WF v x := hx
    refine ⟨fun i => .int 4 true i, .int _ _, ?_⟩
    show Splits _ (fun y => UnitConnection.layout v { x with id := y }) _
    simp only [UnitConnection.layout]
    walk Splits.here

theorem UnitConnection.intField_status (v : Version) : IntField.OK (.record .UnitConnection) v ⟨"status", 1, false, fun (x : Genie.UnitConnection) => x.status, fun x y => { x with status := y }⟩ where
  self _ := rfl
  get_set _ _ := rfl
  fits x hx := by
    have hx : UnitConnection.WF v x := hx
    exact fits_u8.2 hx.status
  wf x hx y hy := by
    have hx : UnitConnection.WF v x := hx
    exact { hx with status := fits_u8.1 hy }
  splits x hx := by
    have hx : UnitConnection.WF v x := hx
    refine ⟨fun i => .int 1 false i, .int _ _, ?_⟩
    show Splits _ (fun y => UnitConnection.layout v { x with status := y }) _
    simp only [UnitConnection.layout]
    walk Splits.here

theorem UnitConnection.intField_upper_building (v : Version) : IntField.OK (.record .UnitConnection) v ⟨"upper_building", 4, true, fun (x : Genie.UnitConnection) => x.upper_building, fun x y => { x with upper_building := y }⟩ where
  self _ := rfl
  get_set _ _ := rfl
  fits x hx := by
    have hx : UnitConnection.WF v x := hx
    exact fits_i32.2 hx.upper_building
  wf x hx y hy := by
    have hx : UnitConnection.WF v x := hx
    exact { hx with upper_building := fits_i32.1 hy }
  splits x hx := by
    have hx : UnitConnection.WF v x := hx
    refine ⟨fun i => .int 4 true i, .int _ _, ?_⟩
    show Splits _ (fun y => UnitConnection.layout v { x with upper_building := y }) _
    simp only [UnitConnection.layout]
    walk Splits.here

theorem UnitConnection.intField_vertical_line (v : Version) : IntField.OK (.record .UnitConnection) v ⟨"vertical_line", 4, true, fun (x : Genie.UnitConnection) => x.vertical_line, fun x y => { x with vertical_line := y }⟩ where
  self _ := rfl
  get_set _ _ := rfl
  fits x hx := by
    have hx : UnitConnection.WF v x := hx
    exact fits_i32.2 hx.vertical_line
  wf x hx y hy := by
    have hx : UnitConnection.WF v x := hx
    exact { hx with vertical_line := fits_i32.1 hy }
  splits x hx := by
    have hx : UnitConnection.WF v x := hx
    refine ⟨fun i => .int 4 true i, .int _ _, ?_⟩
    show Splits _ (fun y => UnitConnection.layout v { x with vertical_line := y }) _
    simp only [UnitConnection.layout]
    walk Splits.here

theorem UnitConnection.intField_location_in_age (v : Version) : IntField.OK (.record .UnitConnection) v ⟨"location_in_age", 4, true, fun (x : Genie.UnitConnection) => x.location_in_age, fun x y => { x with location_in_age := y }⟩ where
  self _ := rfl
  get_set _ _ := rfl
  fits x hx := by
    have hx : UnitConnection.WF v x := hx
    exact fits_i32.2 hx.location_in_age
  wf x hx y hy := by
    have hx : UnitConnection.WF v x := hx
    exact { hx with location_in_age := fits_i32.1 hy }
  splits x hx := by
    have hx : UnitConnection.WF v x := hx
    refine ⟨fun i => .int 4 true i, .int _ _, ?_⟩
    show Splits _ (fun y => UnitConnection.layout v { x with location_in_age := y }) _
    simp only [UnitConnection.layout]
    walk Splits.here

theorem UnitConnection.intField_required_research (v : Version) : IntField.OK (.record .UnitConnection) v ⟨"required_research", 4, true, fun (x : Genie.UnitConnection) => x.required_research, fun x y => { x with required_research := y }⟩ where
  self _ := rfl
  get_set _ _ := rfl
  fits x hx := by
    have hx : UnitConnection.WF v x := hx
    exact fits_i32.2 hx.required_research
  wf x hx y hy := by
    have hx : UnitConnection.WF v x := hx
    exact { hx with required_research := fits_i32.1 hy }
  splits x hx := by
    have hx : UnitConnection.WF v x := hx
    refine ⟨fun i => .int 4 true i, .int _ _, ?_⟩
    show Splits _ (fun y => UnitConnection.layout v { x with required_research := y }) _
    simp only [UnitConnection.layout]
    walk Splits.here

theorem UnitConnection.intField_line_mode (v : Version) : IntField.OK (.record .UnitConnection) v ⟨"line_mode", 4, true, fun (x : Genie.UnitConnection) => x.line_mode, fun x y => { x with line_mode := y }⟩ where
  self _ := rfl
  get_set _ _ := rfl
  fits x hx := by
    have hx : UnitConnection.WF v x := hx
    exact fits_i32.2 hx.line_mode
  wf x hx y hy := by
    have hx : UnitConnection.WF v x := hx
    exact { hx with line_mode := fits_i32.1 hy }
  splits x hx := by
    have hx : UnitConnection.WF v x := hx
    refine ⟨fun i => .int 4 true i, .int _ _, ?_⟩
    show Splits _ (fun y => UnitConnection.layout v { x with line_mode := y }) _
    simp only [UnitConnection.layout]
    walk Splits.here

theorem UnitConnection.intField_enabling_research (v : Version) : IntField.OK (.record .UnitConnection) v ⟨"enabling_research", 4, true, fun (x : Genie.UnitConnection) => x.enabling_research, fun x y => { x with enabling_research := y }⟩ where
  self _ := rfl
  get_set _ _ := rfl
  fits x hx := by
    have hx : UnitConnection.WF v x := hx
    exact fits_i32.2 hx.enabling_research
  wf x hx y hy := by
    have hx : UnitConnection.WF v x := hx
    exact { hx with enabling_research := fits_i32.1 hy }
  splits x hx := by
    have hx : UnitConnection.WF v x := hx
    refine ⟨fun i => .int 4 true i, .int _ _, ?_⟩
    show Splits _ (fun y => UnitConnection.layout v { x with enabling_research := y }) _
    simp only [UnitConnection.layout]
    walk Splits.here

theorem UnitConnection.intFields (v : Version) : ∀ f ∈ Node.intFields v (.record .UnitConnection), IntField.OK (.record .UnitConnection) v f :=
  forall_cons (UnitConnection.intField_id v) (forall_cons (UnitConnection.intField_status v) (forall_cons (UnitConnection.intField_upper_building v) (forall_cons (UnitConnection.intField_vertical_line v) (forall_cons (UnitConnection.intField_location_in_age v) (forall_cons (UnitConnection.intField_required_research v) (forall_cons (UnitConnection.intField_line_mode v) (forall_cons (UnitConnection.intField_enabling_research v) (forall_nil))))))))

theorem ResearchConnection.intField_id (v : Version) : IntField.OK (.record .ResearchConnection) v ⟨"id", 4, true, fun (x : Genie.ResearchConnection) => x.id, fun x y => { x with id := y }⟩ where
  self _ := rfl
  get_set _ _ := rfl
  fits x hx := by
    have hx : ResearchConnection.WF v x := hx
    exact fits_i32.2 hx.id
  wf x hx y hy := by
    have hx : ResearchConnection.WF v x := hx
    exact { hx with id := fits_i32.1 hy }
  splits x hx := by
    have hx : ResearchConnection.WF v x := hx
    refine ⟨fun i => .int 4 true i, .int _ _, ?_⟩
    show Splits _ (fun y => ResearchConnection.layout v { x with id := y }) _
    simp only [ResearchConnection.layout]
    walk Splits.here

theorem ResearchConnection.intField_status (v : Version) : IntField.OK (.record .ResearchConnection) v ⟨"status", 1, false, fun (x : Genie.ResearchConnection) => x.status, fun x y => { x with status := y }⟩ where
  self _ := rfl
  get_set _ _ := rfl
  fits x hx := by
    have hx : ResearchConnection.WF v x := hx
    exact fits_u8.2 hx.status
  wf x hx y hy := by
    have hx : ResearchConnection.WF v x := hx
    exact { hx with status := fits_u8.1 hy }
  splits x hx := by
    have hx : ResearchConnection.WF v x := hx
    refine ⟨fun i => .int 1 false i, .int _ _, ?_⟩
    show Splits _ (fun y => ResearchConnection.layout v { x with status := y }) _
    simp only [ResearchConnection.layout]
    walk Splits.here

theorem ResearchConnection.intField_upper_building (v : Version) : IntField.OK (.record .ResearchConnection) v ⟨"upper_building", 4, true, fun (x : Genie.ResearchConnection) => x.upper_building, fun x y => { x with upper_building := y }⟩ where
  self _ := rfl
  get_set _ _ := rfl
  fits x hx := by
    have hx : ResearchConnection.WF v x := hx
    exact fits_i32.2 hx.upper_building
  wf x hx y hy := by
    have hx : ResearchConnection.WF v x := hx
    exact { hx with upper_building := fits_i32.1 hy }
  splits x hx := by
    have hx : ResearchConnection.WF v x := hx
    refine ⟨fun i => .int 4 true i, .int _ _, ?_⟩
    show Splits _ (fun y => ResearchConnection.layout v { x with upper_building := y }) _
    simp only [ResearchConnection.layout]
    walk Splits.here

theorem ResearchConnection.intField_vertical_line (v : Version) : IntField.OK (.record .ResearchConnection) v ⟨"vertical_line", 4, true, fun (x : Genie.ResearchConnection) => x.vertical_line, fun x y => { x with vertical_line := y }⟩ where
  self _ := rfl
  get_set _ _ := rfl
  fits x hx := by
    have hx : ResearchConnection.WF v x := hx
    exact fits_i32.2 hx.vertical_line
  wf x hx y hy := by
    have hx : ResearchConnection.WF v x := hx
    exact { hx with vertical_line := fits_i32.1 hy }
  splits x hx := by
    have hx : ResearchConnection.WF v x := hx
    refine ⟨fun i => .int 4 true i, .int _ _, ?_⟩
    show Splits _ (fun y => ResearchConnection.layout v { x with vertical_line := y }) _
    simp only [ResearchConnection.layout]
    walk Splits.here

theorem ResearchConnection.intField_location_in_age (v : Version) : IntField.OK (.record .ResearchConnection) v ⟨"location_in_age", 4, true, fun (x : Genie.ResearchConnection) => x.location_in_age, fun x y => { x with location_in_age := y }⟩ where
  self _ := rfl
  get_set _ _ := rfl
  fits x hx := by
    have hx : ResearchConnection.WF v x := hx
    exact fits_i32.2 hx.location_in_age
  wf x hx y hy := by
    have hx : ResearchConnection.WF v x := hx
    exact { hx with location_in_age := fits_i32.1 hy }
  splits x hx := by
    have hx : ResearchConnection.WF v x := hx
    refine ⟨fun i => .int 4 true i, .int _ _, ?_⟩
    show Splits _ (fun y => ResearchConnection.layout v { x with location_in_age := y }) _
    simp only [ResearchConnection.layout]
    walk Splits.here

theorem ResearchConnection.intField_line_mode (v : Version) : IntField.OK (.record .ResearchConnection) v ⟨"line_mode", 4, true, fun (x : Genie.ResearchConnection) => x.line_mode, fun x y => { x with line_mode := y }⟩ where
  self _ := rfl
  get_set _ _ := rfl
  fits x hx := by
    have hx : ResearchConnection.WF v x := hx
    exact fits_i32.2 hx.line_mode
  wf x hx y hy := by
    have hx : ResearchConnection.WF v x := hx
    exact { hx with line_mode := fits_i32.1 hy }
  splits x hx := by
    have hx : ResearchConnection.WF v x := hx
    refine ⟨fun i => .int 4 true i, .int _ _, ?_⟩
    show Splits _ (fun y => ResearchConnection.layout v { x with line_mode := y }) _
    simp only [ResearchConnection.layout]
    walk Splits.here

theorem ResearchConnection.intFields (v : Version) : ∀ f ∈ Node.intFields v (.record .ResearchConnection), IntField.OK (.record .ResearchConnection) v f :=
  forall_cons (ResearchConnection.intField_id v) (forall_cons (ResearchConnection.intField_status v) (forall_cons (ResearchConnection.intField_upper_building v) (forall_cons (ResearchConnection.intField_vertical_line v) (forall_cons (ResearchConnection.intField_location_in_age v) (forall_cons (ResearchConnection.intField_line_mode v) (forall_nil))))))

theorem TechTree.intField_total_unit_tech_groups (v : Version) : IntField.OK (.record .TechTree) v ⟨"total_unit_tech_groups", 4, true, fun (x : Genie.TechTree) => x.total_unit_tech_groups, fun x y => { x with total_unit_tech_groups := y }⟩ where
  self _ := rfl
  get_set _ _ := rfl
  fits x hx := by
    have hx : TechTree.WF v x := hx
    exact fits_i32.2 hx.total_unit_tech_groups
  wf x hx y hy := by
    have hx : TechTree.WF v x := hx
    exact { hx with total_unit_tech_groups := fits_i32.1 hy }
  splits x hx := by
    have hx : TechTree.WF v x := hx
    refine ⟨fun i => .int 4 true i, .int _ _, ?_⟩
    show Splits _ (fun y => TechTree.layout v { x with total_unit_tech_groups := y }) _
    simp only [TechTree.layout]
    walk Splits.here

theorem TechTree.intFields (v : Version) : ∀ f ∈ Node.intFields v (.record .TechTree), IntField.OK (.record .TechTree) v f :=
  forall_cons (TechTree.intField_total_unit_tech_groups v) (forall_nil)

theorem ResourceStorage.intField_type (v : Version) : IntField.OK (.record .ResourceStorage) v ⟨"type", 2, true, fun (x : Genie.ResourceStorage) => x.type, fun x y => { x with type := y }⟩ where
  self _ := rfl
  get_set _ _ := rfl
  fits x hx := by
    have hx : ResourceStorage.WF v x := hx
    exact fits_i16.2 hx.type
  wf x hx y hy := by
    have hx : ResourceStorage.WF v x := hx
    exact { hx with type := fits_i16.1 hy }
  splits x hx := by
    have hx : ResourceStorage.WF v x := hx
    refine ⟨fun i => .packed .h (.int i), .h, ?_⟩
    show Splits _ (fun y => ResourceStorage.layout v { x with type := y }) _
    simp only [ResourceStorage.layout_flat]
    walk Splits.here

theorem ResourceStorage.intField_flag (v : Version) : IntField.OK (.record .ResourceStorage) v ⟨"flag", 1, true, fun (x : Genie.ResourceStorage) => x.flag, fun x y => { x with flag := y }⟩ where
  self _ := rfl
  get_set _ _ := rfl
  fits x hx := by
    have hx : ResourceStorage.WF v x := hx
    exact fits_i8.2 hx.flag
  wf x hx y hy := by
    have hx : ResourceStorage.WF v x := hx
    exact { hx with flag := fits_i8.1 hy }
  splits x hx := by
    have hx : ResourceStorage.WF v x := hx
    refine ⟨fun i => .packed .b (.int i), .b, ?_⟩
    show Splits _ (fun y => ResourceStorage.layout v { x with flag := y }) _
    simp only [ResourceStorage.layout_flat]
    walk Splits.here

theorem ResourceStorage.intFields (v : Version) : ∀ f ∈ Node.intFields v (.record .ResourceStorage), IntField.OK (.record .ResourceStorage) v f :=
  forall_cons (ResourceStorage.intField_type v) (forall_cons (ResourceStorage.intField_flag v) (forall_nil))

theorem DamageGraphic.intField_graphic_id (v : Version) : IntField.OK (.record .DamageGraphic) v ⟨"graphic_id", 2, true, fun (x : Genie.DamageGraphic) => x.graphic_id, fun x y => { x with graphic_id := y }⟩ where
  self _ := rfl
  get_set _ _ := rfl
  fits x hx := by
    have hx : DamageGraphic.WF v x := hx
    exact fits_i16.2 hx.graphic_id
  wf x hx y hy := by
    have hx : DamageGraphic.WF v x := hx
    exact { hx with graphic_id := fits_i16.1 hy }
  splits x hx := by
    have hx : DamageGraphic.WF v x := hx
    refine ⟨fun i => .packed .h (.int i), .h, ?_⟩
    show Splits _ (fun y => DamageGraphic.layout v { x with graphic_id := y }) _
    simp only [DamageGraphic.layout_flat]
    walk Splits.here

theorem DamageGraphic.intField_damage_percent (v : Version) : IntField.OK (.record .DamageGraphic) v ⟨"damage_percent", 2, true, fun (x : Genie.DamageGraphic) => x.damage_percent, fun x y => { x with damage_percent := y }⟩ where
  self _ := rfl
  get_set _ _ := rfl
  fits x hx := by
    have hx : DamageGraphic.WF v x := hx
    exact fits_i16.2 hx.damage_percent
  wf x hx y hy := by
    have hx : DamageGraphic.WF v x := hx
    exact { hx with damage_percent := fits_i16.1 hy }
  splits x hx := by
    have hx : DamageGraphic.WF v x := hx
    refine ⟨fun i => .packed .h (.int i), .h, ?_⟩
    show Splits _ (fun y => DamageGraphic.layout v { x with damage_percent := y }) _
    simp only [DamageGraphic.layout_flat]
    walk Splits.here

theorem DamageGraphic.intField_apply_mode (v : Version) : IntField.OK (.record .DamageGraphic) v ⟨"apply_mode", 1, true, fun (x : Genie.DamageGraphic) => x.apply_mode, fun x y => { x with apply_mode := y }⟩ where
  self _ := rfl
  get_set _ _ := rfl
  fits x hx := by
    have hx : DamageGraphic.WF v x := hx
    exact fits_i8.2 hx.apply_mode
  wf x hx y hy := by
    have hx : DamageGraphic.WF v x := hx
    exact { hx with apply_mode := fits_i8.1 hy }
  splits x hx := by
    have hx : DamageGraphic.WF v x := hx
    refine ⟨fun i => .packed .b (.int i), .b, ?_⟩
    show Splits _ (fun y => DamageGraphic.layout v { x with apply_mode := y }) _
    simp only [DamageGraphic.layout_flat]
    walk Splits.here

theorem DamageGraphic.intFields (v : Version) : ∀ f ∈ Node.intFields v (.record .DamageGraphic), IntField.OK (.record .DamageGraphic) v f :=
  forall_cons (DamageGraphic.intField_graphic_id v) (forall_cons (DamageGraphic.intField_damage_percent v) (forall_cons (DamageGraphic.intField_apply_mode v) (forall_nil)))

theorem DeadFish.intField_walking_graphic (v : Version) : IntField.OK (.record .DeadFish) v ⟨"walking_graphic", 2, true, fun (x : Genie.DeadFish) => x.walking_graphic, fun x y => { x with walking_graphic := y }⟩ where
  self _ := rfl
  get_set _ _ := rfl
  fits x hx := by
    have hx : DeadFish.WF v x := hx
    exact fits_i16.2 hx.walking_graphic
  wf x hx y hy := by
    have hx : DeadFish.WF v x := hx
    exact { hx with walking_graphic := fits_i16.1 hy }
  splits x hx := by
    have hx : DeadFish.WF v x := hx
    refine ⟨fun i => .packed .h (.int i), .h, ?_⟩
    show Splits _ (fun y => DeadFish.layout v { x with walking_graphic := y }) _
    simp only [DeadFish.layout_flat]
    walk Splits.here

theorem DeadFish.intField_running_graphic (v : Version) : IntField.OK (.record .DeadFish) v ⟨"running_graphic", 2, true, fun (x : Genie.DeadFish) => x.running_graphic, fun x y => { x with running_graphic := y }⟩ where
  self _ := rfl
  get_set _ _ := rfl
  fits x hx := by
    have hx : DeadFish.WF v x := hx
    exact fits_i16.2 hx.running_graphic
  wf x hx y hy := by
    have hx : DeadFish.WF v x := hx
    exact { hx with running_graphic := fits_i16.1 hy }
  splits x hx := by
    have hx : DeadFish.WF v x := hx
    refine ⟨fun i => .packed .h (.int i), .h, ?_⟩
    show Splits _ (fun y => DeadFish.layout v { x with running_graphic := y }) _
    simp only [DeadFish.layout_flat]
    walk Splits.here

theorem DeadFish.intField_old_size_class (v : Version) : IntField.OK (.record .DeadFish) v ⟨"old_size_class", 1, true, fun (x : Genie.DeadFish) => x.old_size_class, fun x y => { x with old_size_class := y }⟩ where
  self _ := rfl
  get_set _ _ := rfl
  fits x hx := by
    have hx : DeadFish.WF v x := hx
    exact fits_i8.2 hx.old_size_class
  wf x hx y hy := by
    have hx : DeadFish.WF v x := hx
    exact { hx with old_size_class := fits_i8.1 hy }
  splits x hx := by
    have hx : DeadFish.WF v x := hx
    refine ⟨fun i => .packed .b (.int i), .b, ?_⟩
    show Splits _ (fun y => DeadFish.layout v { x with old_size_class := y }) _
    simp only [DeadFish.layout_flat]
    walk Splits.here

theorem DeadFish.intField_tracking_unit (v : Version) : IntField.OK (.record .DeadFish) v ⟨"tracking_unit", 2, true, fun (x : Genie.DeadFish) => x.tracking_unit, fun x y => { x with tracking_unit := y }⟩ where
  self _ := rfl
  get_set _ _ := rfl
  fits x hx := by
    have hx : DeadFish.WF v x := hx
    exact fits_i16.2 hx.tracking_unit
  wf x hx y hy := by
    have hx : DeadFish.WF v x := hx
    exact { hx with tracking_unit := fits_i16.1 hy }
  splits x hx := by
    have hx : DeadFish.WF v x := hx
    refine ⟨fun i => .packed .h (.int i), .h, ?_⟩
    show Splits _ (fun y => DeadFish.layout v { x with tracking_unit := y }) _
    simp only [DeadFish.layout_flat]
    walk Splits.here

theorem DeadFish.intField_tracking_unit_mode (v : Version) : IntField.OK (.record .DeadFish) v ⟨"tracking_unit_mode", 1, true, fun (x : Genie.DeadFish) => x.tracking_unit_mode, fun x y => { x with tracking_unit_mode := y }⟩ where
  self _ := rfl
  get_set _ _ := rfl
  fits x hx := by
    have hx : DeadFish.WF v x := hx
    exact fits_i8.2 hx.tracking_unit_mode
  wf x hx y hy := by
    have hx : DeadFish.WF v x := hx
    exact { hx with tracking_unit_mode := fits_i8.1 hy }
  splits x hx := by
    have hx : DeadFish.WF v x := hx
    refine ⟨fun i => .packed .b (.int i), .b, ?_⟩
    show Splits _ (fun y => DeadFish.layout v { x with tracking_unit_mode := y }) _
    simp only [DeadFish.layout_flat]
    walk Splits.here

theorem DeadFish.intField_old_move_algorithm (v : Version) : IntField.OK (.record .DeadFish) v ⟨"old_move_algorithm", 1, true, fun (x : Genie.DeadFish) => x.old_move_algorithm, fun x y => { x with old_move_algorithm := y }⟩ where
  self _ := rfl
  get_set _ _ := rfl
  fits x hx := by
    have hx : DeadFish.WF v x := hx
    exact fits_i8.2 hx.old_move_algorithm
  wf x hx y hy := by
    have hx : DeadFish.WF v x := hx
    exact { hx with old_move_algorithm := fits_i8.1 hy }
  splits x hx := by
    have hx : DeadFish.WF v x := hx
    refine ⟨fun i => .packed .b (.int i), .b, ?_⟩
    show Splits _ (fun y => DeadFish.layout v { x with old_move_algorithm := y }) _
    simp only [DeadFish.layout_flat]
    walk Splits.here

theorem DeadFish.intFields (v : Version) : ∀ f ∈ Node.intFields v (.record .DeadFish), IntField.OK (.record .DeadFish) v f :=
  forall_cons (DeadFish.intField_walking_graphic v) (forall_cons (DeadFish.intField_running_graphic v) (forall_cons (DeadFish.intField_old_size_class v) (forall_cons (DeadFish.intField_tracking_unit v) (forall_cons (DeadFish.intField_tracking_unit_mode v) (forall_cons (DeadFish.intField_old_move_algorithm v) (forall_nil))))))

theorem Task.intField_task_type (v : Version) : IntField.OK (.record .Task) v ⟨"task_type", 2, true, fun (x : Genie.Task) => x.task_type, fun x y => { x with task_type := y }⟩ where
  self _ := rfl
  get_set _ _ := rfl
  fits x hx := by
    have hx : Task.WF v x := hx
    exact fits_i16.2 hx.task_type
  wf x hx y hy := by
    have hx : Task.WF v x := hx
    exact { hx with task_type := fits_i16.1 hy }
  splits x hx := by
    have hx : Task.WF v x := hx
    refine ⟨fun i => .packed .h (.int i), .h, ?_⟩
    show Splits _ (fun y => Task.layout v { x with task_type := y }) _
    by_cases hv : 88 ≤ v.num
    · simp only [Task.layout_flat88 v _ hv]
      walk Splits.here
    · simp only [Task.layout_flat84 v _ hv]
      walk Splits.here

theorem Task.intField_id (v : Version) : IntField.OK (.record .Task) v ⟨"id", 2, true, fun (x : Genie.Task) => x.id, fun x y => { x with id := y }⟩ where
  self _ := rfl
  get_set _ _ := rfl
  fits x hx := by
    have hx : Task.WF v x := hx
    exact fits_i16.2 hx.id
  wf x hx y hy := by
    have hx : Task.WF v x := hx
    exact { hx with id := fits_i16.1 hy }
  splits x hx := by
    have hx : Task.WF v x := hx
    refine ⟨fun i => .packed .h (.int i), .h, ?_⟩
    show Splits _ (fun y => Task.layout v { x with id := y }) _
    by_cases hv : 88 ≤ v.num
    · simp only [Task.layout_flat88 v _ hv]
      walk Splits.here
    · simp only [Task.layout_flat84 v _ hv]
      walk Splits.here

theorem Task.intField_is_default (v : Version) : IntField.OK (.record .Task) v ⟨"is_default", 1, true, fun (x : Genie.Task) => x.is_default, fun x y => { x with is_default := y }⟩ where
  self _ := rfl
  get_set _ _ := rfl
  fits x hx := by
    have hx : Task.WF v x := hx
    exact fits_i8.2 hx.is_default
  wf x hx y hy := by
    have hx : Task.WF v x := hx
    exact { hx with is_default := fits_i8.1 hy }
  splits x hx := by
    have hx : Task.WF v x := hx
    refine ⟨fun i => .packed .b (.int i), .b, ?_⟩
    show Splits _ (fun y => Task.layout v { x with is_default := y }) _
    by_cases hv : 88 ≤ v.num
    · simp only [Task.layout_flat88 v _ hv]
      walk Splits.here
    · simp only [Task.layout_flat84 v _ hv]
      walk Splits.here

theorem Task.intField_action_type (v : Version) : IntField.OK (.record .Task) v ⟨"action_type", 2, true, fun (x : Genie.Task) => x.action_type, fun x y => { x with action_type := y }⟩ where
  self _ := rfl
  get_set _ _ := rfl
  fits x hx := by
    have hx : Task.WF v x := hx
    exact fits_i16.2 hx.action_type
  wf x hx y hy := by
    have hx : Task.WF v x := hx
    exact { hx with action_type := fits_i16.1 hy }
  splits x hx := by
    have hx : Task.WF v x := hx
    refine ⟨fun i => .packed .h (.int i), .h, ?_⟩
    show Splits _ (fun y => Task.layout v { x with action_type := y }) _
    by_cases hv : 88 ≤ v.num
    · simp only [Task.layout_flat88 v _ hv]
      walk Splits.here
    · simp only [Task.layout_flat84 v _ hv]
      walk Splits.here

theorem Task.intField_class_id (v : Version) : IntField.OK (.record .Task) v ⟨"class_id", 2, true, fun (x : Genie.Task) => x.class_id, fun x y => { x with class_id := y }⟩ where
  self _ := rfl
  get_set _ _ := rfl
  fits x hx := by
    have hx : Task.WF v x := hx
    exact fits_i16.2 hx.class_id
  wf x hx y hy := by
    have hx : Task.WF v x := hx
    exact { hx with class_id := fits_i16.1 hy }
  splits x hx := by
    have hx : Task.WF v x := hx
    refine ⟨fun i => .packed .h (.int i), .h, ?_⟩
    show Splits _ (fun y => Task.layout v { x with class_id := y }) _
    by_cases hv : 88 ≤ v.num
    · simp only [Task.layout_flat88 v _ hv]
      walk Splits.here
    · simp only [Task.layout_flat84 v _ hv]
      walk Splits.here

theorem Task.intField_unit_id (v : Version) : IntField.OK (.record .Task) v ⟨"unit_id", 2, true, fun (x : Genie.Task) => x.unit_id, fun x y => { x with unit_id := y }⟩ where
  self _ := rfl
  get_set _ _ := rfl
  fits x hx := by
    have hx : Task.WF v x := hx
    exact fits_i16.2 hx.unit_id
  wf x hx y hy := by
    have hx : Task.WF v x := hx
    exact { hx with unit_id := fits_i16.1 hy }
  splits x hx := by
    have hx : Task.WF v x := hx
    refine ⟨fun i => .packed .h (.int i), .h, ?_⟩
    show Splits _ (fun y => Task.layout v { x with unit_id := y }) _
    by_cases hv : 88 ≤ v.num
    · simp only [Task.layout_flat88 v _ hv]
      walk Splits.here
    · simp only [Task.layout_flat84 v _ hv]
      walk Splits.here

theorem Task.intField_terrain_id (v : Version) : IntField.OK (.record .Task) v ⟨"terrain_id", 2, true, fun (x : Genie.Task) => x.terrain_id, fun x y => { x with terrain_id := y }⟩ where
  self _ := rfl
  get_set _ _ := rfl
  fits x hx := by
    have hx : Task.WF v x := hx
    exact fits_i16.2 hx.terrain_id
  wf x hx y hy := by
    have hx : Task.WF v x := hx
    exact { hx with terrain_id := fits_i16.1 hy }
  splits x hx := by
    have hx : Task.WF v x := hx
    refine ⟨fun i => .packed .h (.int i), .h, ?_⟩
    show Splits _ (fun y => Task.layout v { x with terrain_id := y }) _
    by_cases hv : 88 ≤ v.num
    · simp only [Task.layout_flat88 v _ hv]
      walk Splits.here
    · simp only [Task.layout_flat84 v _ hv]
      walk Splits.here

theorem Task.intField_resource_in (v : Version) : IntField.OK (.record .Task) v ⟨"resource_in", 2, true, fun (x : Genie.Task) => x.resource_in, fun x y => { x with resource_in := y }⟩ where
  self _ := rfl
  get_set _ _ := rfl
  fits x hx := by
    have hx : Task.WF v x := hx
    exact fits_i16.2 hx.resource_in
  wf x hx y hy := by
    have hx : Task.WF v x := hx
    exact { hx with resource_in := fits_i16.1 hy }
  splits x hx := by
    have hx : Task.WF v x := hx
    refine ⟨fun i => .packed .h (.int i), .h, ?_⟩
    show Splits _ (fun y => Task.layout v { x with resource_in := y }) _
    by_cases hv : 88 ≤ v.num
    · simp only [Task.layout_flat88 v _ hv]
      walk Splits.here
    · simp only [Task.layout_flat84 v _ hv]
      walk Splits.here

theorem Task.intField_resource_multiplier (v : Version) : IntField.OK (.record .Task) v ⟨"resource_multiplier", 2, true, fun (x : Genie.Task) => x.resource_multiplier, fun x y => { x with resource_multiplier := y }⟩ where
  self _ := rfl
  get_set _ _ := rfl
  fits x hx := by
    have hx : Task.WF v x := hx
    exact fits_i16.2 hx.resource_multiplier
  wf x hx y hy := by
    have hx : Task.WF v x := hx
    exact { hx with resource_multiplier := fits_i16.1 hy }
  splits x hx := by
    have hx : Task.WF v x := hx
    refine ⟨fun i => .packed .h (.int i), .h, ?_⟩
    show Splits _ (fun y => Task.layout v { x with resource_multiplier := y }) _
    by_cases hv : 88 ≤ v.num
    · simp only [Task.layout_flat88 v _ hv]
      walk Splits.here
    · simp only [Task.layout_flat84 v _ hv]
      walk Splits.here

theorem Task.intField_resource_out (v : Version) : IntField.OK (.record .Task) v ⟨"resource_out", 2, true, fun (x : Genie.Task) => x.resource_out, fun x y => { x with resource_out := y }⟩ where
  self _ := rfl
  get_set _ _ := rfl
  fits x hx := by
    have hx : Task.WF v x := hx
    exact fits_i16.2 hx.resource_out
  wf x hx y hy := by
    have hx : Task.WF v x := hx
    exact { hx with resource_out := fits_i16.1 hy }
  splits x hx := by
    have hx : Task.WF v x := hx
    refine ⟨fun i => .packed .h (.int i), .h, ?_⟩
    show Splits _ (fun y => Task.layout v { x with resource_out := y }) _
    by_cases hv : 88 ≤ v.num
    · simp only [Task.layout_flat88 v _ hv]
      walk Splits.here
    · simp only [Task.layout_flat84 v _ hv]
      walk Splits.here

theorem Task.intField_unused_resource (v : Version) : IntField.OK (.record .Task) v ⟨"unused_resource", 2, true, fun (x : Genie.Task) => x.unused_resource, fun x y => { x with unused_resource := y }⟩ where
  self _ := rfl
  get_set _ _ := rfl
  fits x hx := by
    have hx : Task.WF v x := hx
    exact fits_i16.2 hx.unused_resource
  wf x hx y hy := by
    have hx : Task.WF v x := hx
    exact { hx with unused_resource := fits_i16.1 hy }
  splits x hx := by
    have hx : Task.WF v x := hx
    refine ⟨fun i => .packed .h (.int i), .h, ?_⟩
    show Splits _ (fun y => Task.layout v { x with unused_resource := y }) _
    by_cases hv : 88 ≤ v.num
    · simp only [Task.layout_flat88 v _ hv]
      walk Splits.here
    · simp only [Task.layout_flat84 v _ hv]
      walk Splits.here

theorem Task.intField_auto_search_targets (v : Version) : IntField.OK (.record .Task) v ⟨"auto_search_targets", 1, true, fun (x : Genie.Task) => x.auto_search_targets, fun x y => { x with auto_search_targets := y }⟩ where
  self _ := rfl
  get_set _ _ := rfl
  fits x hx := by
    have hx : Task.WF v x := hx
    exact fits_i8.2 hx.auto_search_targets
  wf x hx y hy := by
    have hx : Task.WF v x := hx
    exact { hx with auto_search_targets := fits_i8.1 hy }
  splits x hx := by
    have hx : Task.WF v x := hx
    refine ⟨fun i => .packed .b (.int i), .b, ?_⟩
    show Splits _ (fun y => Task.layout v { x with auto_search_targets := y }) _
    by_cases hv : 88 ≤ v.num
    · simp only [Task.layout_flat88 v _ hv]
      walk Splits.here
    · simp only [Task.layout_flat84 v _ hv]
      walk Splits.here

theorem Task.intField_enable_targeting (v : Version) : IntField.OK (.record .Task) v ⟨"enable_targeting", 1, true, fun (x : Genie.Task) => x.enable_targeting, fun x y => { x with enable_targeting := y }⟩ where
  self _ := rfl
  get_set _ _ := rfl
  fits x hx := by
    have hx : Task.WF v x := hx
    exact fits_i8.2 hx.enable_targeting
  wf x hx y hy := by
    have hx : Task.WF v x := hx
    exact { hx with enable_targeting := fits_i8.1 hy }
  splits x hx := by
    have hx : Task.WF v x := hx
    refine ⟨fun i => .packed .b (.int i), .b, ?_⟩
    show Splits _ (fun y => Task.layout v { x with enable_targeting := y }) _
    by_cases hv : 88 ≤ v.num
    · simp only [Task.layout_flat88 v _ hv]
      walk Splits.here
    · simp only [Task.layout_flat84 v _ hv]
      walk Splits.here

theorem Task.intField_combat_level_flag (v : Version) : IntField.OK (.record .Task) v ⟨"combat_level_flag", 1, true, fun (x : Genie.Task) => x.combat_level_flag, fun x y => { x with combat_level_flag := y }⟩ where
  self _ := rfl
  get_set _ _ := rfl
  fits x hx := by
    have hx : Task.WF v x := hx
    exact fits_i8.2 hx.combat_level_flag
  wf x hx y hy := by
    have hx : Task.WF v x := hx
    exact { hx with combat_level_flag := fits_i8.1 hy }
  splits x hx := by
    have hx : Task.WF v x := hx
    refine ⟨fun i => .packed .b (.int i), .b, ?_⟩
    show Splits _ (fun y => Task.layout v { x with combat_level_flag := y }) _
    by_cases hv : 88 ≤ v.num
    · simp only [Task.layout_flat88 v _ hv]
      walk Splits.here
    · simp only [Task.layout_flat84 v _ hv]
      walk Splits.here

theorem Task.intField_gather_type (v : Version) : IntField.OK (.record .Task) v ⟨"gather_type", 2, true, fun (x : Genie.Task) => x.gather_type, fun x y => { x with gather_type := y }⟩ where
  self _ := rfl
  get_set _ _ := rfl
  fits x hx := by
    have hx : Task.WF v x := hx
    exact fits_i16.2 hx.gather_type
  wf x hx y hy := by
    have hx : Task.WF v x := hx
    exact { hx with gather_type := fits_i16.1 hy }
  splits x hx := by
    have hx : Task.WF v x := hx
    refine ⟨fun i => .packed .h (.int i), .h, ?_⟩
    show Splits _ (fun y => Task.layout v { x with gather_type := y }) _
    by_cases hv : 88 ≤ v.num
    · simp only [Task.layout_flat88 v _ hv]
      walk Splits.here
    · simp only [Task.layout_flat84 v _ hv]
      walk Splits.here

theorem Task.intField_work_flag_2 (v : Version) : IntField.OK (.record .Task) v ⟨"work_flag_2", 2, true, fun (x : Genie.Task) => x.work_flag_2, fun x y => { x with work_flag_2 := y }⟩ where
  self _ := rfl
  get_set _ _ := rfl
  fits x hx := by
    have hx : Task.WF v x := hx
    exact fits_i16.2 hx.work_flag_2
  wf x hx y hy := by
    have hx : Task.WF v x := hx
    exact { hx with work_flag_2 := fits_i16.1 hy }
  splits x hx := by
    have hx : Task.WF v x := hx
    refine ⟨fun i => .packed .h (.int i), .h, ?_⟩
    show Splits _ (fun y => Task.layout v { x with work_flag_2 := y }) _
    by_cases hv : 88 ≤ v.num
    · simp only [Task.layout_flat88 v _ hv]
      walk Splits.here
    · simp only [Task.layout_flat84 v _ hv]
      walk Splits.here

theorem Task.intField_target_diplomacy (v : Version) : IntField.OK (.record .Task) v ⟨"target_diplomacy", 1, true, fun (x : Genie.Task) => x.target_diplomacy, fun x y => { x with target_diplomacy := y }⟩ where
  self _ := rfl
  get_set _ _ := rfl
  fits x hx := by
    have hx : Task.WF v x := hx
    exact fits_i8.2 hx.target_diplomacy
  wf x hx y hy := by
    have hx : Task.WF v x := hx
    exact { hx with target_diplomacy := fits_i8.1 hy }
  splits x hx := by
    have hx : Task.WF v x := hx
    refine ⟨fun i => .packed .b (.int i), .b, ?_⟩
    show Splits _ (fun y => Task.layout v { x with target_diplomacy := y }) _
    by_cases hv : 88 ≤ v.num
    · simp only [Task.layout_flat88 v _ hv]
      walk Splits.here
    · simp only [Task.layout_flat84 v _ hv]
      walk Splits.here

theorem Task.intField_carry_check (v : Version) : IntField.OK (.record .Task) v ⟨"carry_check", 1, true, fun (x : Genie.Task) => x.carry_check, fun x y => { x with carry_check := y }⟩ where
  self _ := rfl
  get_set _ _ := rfl
  fits x hx := by
    have hx : Task.WF v x := hx
    exact fits_i8.2 hx.carry_check
  wf x hx y hy := by
    have hx : Task.WF v x := hx
    exact { hx with carry_check := fits_i8.1 hy }
  splits x hx := by
    have hx : Task.WF v x := hx
    refine ⟨fun i => .packed .b (.int i), .b, ?_⟩
    show Splits _ (fun y => Task.layout v { x with carry_check := y }) _
    by_cases hv : 88 ≤ v.num
    · simp only [Task.layout_flat88 v _ hv]
      walk Splits.here
    · simp only [Task.layout_flat84 v _ hv]
      walk Splits.here

theorem Task.intField_pick_for_construction (v : Version) : IntField.OK (.record .Task) v ⟨"pick_for_construction", 1, true, fun (x : Genie.Task) => x.pick_for_construction, fun x y => { x with pick_for_construction := y }⟩ where
  self _ := rfl
  get_set _ _ := rfl
  fits x hx := by
    have hx : Task.WF v x := hx
    exact fits_i8.2 hx.pick_for_construction
  wf x hx y hy := by
    have hx : Task.WF v x := hx
    exact { hx with pick_for_construction := fits_i8.1 hy }
  splits x hx := by
    have hx : Task.WF v x := hx
    refine ⟨fun i => .packed .b (.int i), .b, ?_⟩
    show Splits _ (fun y => Task.layout v { x with pick_for_construction := y }) _
    by_cases hv : 88 ≤ v.num
    · simp only [Task.layout_flat88 v _ hv]
      walk Splits.here
    · simp only [Task.layout_flat84 v _ hv]
      walk Splits.here

theorem Task.intField_moving_graphic_id (v : Version) : IntField.OK (.record .Task) v ⟨"moving_graphic_id", 2, true, fun (x : Genie.Task) => x.moving_graphic_id, fun x y => { x with moving_graphic_id := y }⟩ where
  self _ := rfl
  get_set _ _ := rfl
  fits x hx := by
    have hx : Task.WF v x := hx
    exact fits_i16.2 hx.moving_graphic_id
  wf x hx y hy := by
    have hx : Task.WF v x := hx
    exact { hx with moving_graphic_id := fits_i16.1 hy }
  splits x hx := by
    have hx : Task.WF v x := hx
    refine ⟨fun i => .packed .h (.int i), .h, ?_⟩
    show Splits _ (fun y => Task.layout v { x with moving_graphic_id := y }) _
    by_cases hv : 88 ≤ v.num
    · simp only [Task.layout_flat88 v _ hv]
      walk Splits.here
    · simp only [Task.layout_flat84 v _ hv]
      walk Splits.here

theorem Task.intField_proceeding_graphic_id (v : Version) : IntField.OK (.record .Task) v ⟨"proceeding_graphic_id", 2, true, fun (x : Genie.Task) => x.proceeding_graphic_id, fun x y => { x with proceeding_graphic_id := y }⟩ where
  self _ := rfl
  get_set _ _ := rfl
  fits x hx := by
    have hx : Task.WF v x := hx
    exact fits_i16.2 hx.proceeding_graphic_id
  wf x hx y hy := by
    have hx : Task.WF v x := hx
    exact { hx with proceeding_graphic_id := fits_i16.1 hy }
  splits x hx := by
    have hx : Task.WF v x := hx
    refine ⟨fun i => .packed .h (.int i), .h, ?_⟩
    show Splits _ (fun y => Task.layout v { x with proceeding_graphic_id := y }) _
    by_cases hv : 88 ≤ v.num
    · simp only [Task.layout_flat88 v _ hv]
      walk Splits.here
    · simp only [Task.layout_flat84 v _ hv]
      walk Splits.here

theorem Task.intField_working_graphic_id (v : Version) : IntField.OK (.record .Task) v ⟨"working_graphic_id", 2, true, fun (x : Genie.Task) => x.working_graphic_id, fun x y => { x with working_graphic_id := y }⟩ where
  self _ := rfl
  get_set _ _ := rfl
  fits x hx := by
    have hx : Task.WF v x := hx
    exact fits_i16.2 hx.working_graphic_id
  wf x hx y hy := by
    have hx : Task.WF v x := hx
    exact { hx with working_graphic_id := fits_i16.1 hy }
  splits x hx := by
    have hx : Task.WF v x := hx
    refine ⟨fun i => .packed .h (.int i), .h, ?_⟩
    show Splits _ (fun y => Task.layout v { x with working_graphic_id := y }) _
    by_cases hv : 88 ≤ v.num
    · simp only [Task.layout_flat88 v _ hv]
      walk Splits.here
    · simp only [Task.layout_flat84 v _ hv]
      walk Splits.here

theorem Task.intField_carrying_graphic_id (v : Version) : IntField.OK (.record .Task) v ⟨"carrying_graphic_id", 2, true, fun (x : Genie.Task) => x.carrying_graphic_id, fun x y => { x with carrying_graphic_id := y }⟩ where
  self _ := rfl
  get_set _ _ := rfl
  fits x hx := by
    have hx : Task.WF v x := hx
    exact fits_i16.2 hx.carrying_graphic_id
  wf x hx y hy := by
    have hx : Task.WF v x := hx
    exact { hx with carrying_graphic_id := fits_i16.1 hy }
  splits x hx := by
    have hx : Task.WF v x := hx
    refine ⟨fun i => .packed .h (.int i), .h, ?_⟩
    show Splits _ (fun y => Task.layout v { x with carrying_graphic_id := y }) _
    by_cases hv : 88 ≤ v.num
    · simp only [Task.layout_flat88 v _ hv]
      walk Splits.here
    · simp only [Task.layout_flat84 v _ hv]
      walk Splits.here

theorem Task.intField_resource_gathering_sound_id (v : Version) : IntField.OK (.record .Task) v ⟨"resource_gathering_sound_id", 2, true, fun (x : Genie.Task) => x.resource_gathering_sound_id, fun x y => { x with resource_gathering_sound_id := y }⟩ where
  self _ := rfl
  get_set _ _ := rfl
  fits x hx := by
    have hx : Task.WF v x := hx
    exact fits_i16.2 hx.resource_gathering_sound_id
  wf x hx y hy := by
    have hx : Task.WF v x := hx
    exact { hx with resource_gathering_sound_id := fits_i16.1 hy }
  splits x hx := by
    have hx : Task.WF v x := hx
    refine ⟨fun i => .packed .h (.int i), .h, ?_⟩
    show Splits _ (fun y => Task.layout v { x with resource_gathering_sound_id := y }) _
    by_cases hv : 88 ≤ v.num
    · simp only [Task.layout_flat88 v _ hv]
      walk Splits.here
    · simp only [Task.layout_flat84 v _ hv]
      walk Splits.here

theorem Task.intField_resource_deposit_sound_id (v : Version) : IntField.OK (.record .Task) v ⟨"resource_deposit_sound_id", 2, true, fun (x : Genie.Task) => x.resource_deposit_sound_id, fun x y => { x with resource_deposit_sound_id := y }⟩ where
  self _ := rfl
  get_set _ _ := rfl
  fits x hx := by
    have hx : Task.WF v x := hx
    exact fits_i16.2 hx.resource_deposit_sound_id
  wf x hx y hy := by
    have hx : Task.WF v x := hx
    exact { hx with resource_deposit_sound_id := fits_i16.1 hy }
  splits x hx := by
    have hx : Task.WF v x := hx
    refine ⟨fun i => .packed .h (.int i), .h, ?_⟩
    show Splits _ (fun y => Task.layout v { x with resource_deposit_sound_id := y }) _
    by_cases hv : 88 ≤ v.num
    · simp only [Task.layout_flat88 v _ hv]
      walk Splits.here
    · simp only [Task.layout_flat84 v _ hv]
      walk Splits.here

theorem Task.intField_wwise_resource_gathering_sound_id (v : Version) : IntField.OK (.record .Task) v ⟨"wwise_resource_gathering_sound_id", 4, true, fun (x : Genie.Task) => x.wwise_resource_gathering_sound_id, fun x y => { x with wwise_resource_gathering_sound_id := y }⟩ where
  self _ := rfl
  get_set _ _ := rfl
  fits x hx := by
    have hx : Task.WF v x := hx
    exact fits_i32.2 hx.wwise_resource_gathering_sound_id
  wf x hx y hy := by
    have hx : Task.WF v x := hx
    exact { hx with wwise_resource_gathering_sound_id := fits_i32.1 hy }
  splits x hx := by
    have hx : Task.WF v x := hx
    refine ⟨fun i => .packed .l (.int i), .l, ?_⟩
    show Splits _ (fun y => Task.layout v { x with wwise_resource_gathering_sound_id := y }) _
    by_cases hv : 88 ≤ v.num
    · simp only [Task.layout_flat88 v _ hv]
      walk Splits.here
    · simp only [Task.layout_flat84 v _ hv]
      walk Splits.here

theorem Task.intField_wwise_resource_deposit_sound_id (v : Version) : IntField.OK (.record .Task) v ⟨"wwise_resource_deposit_sound_id", 4, true, fun (x : Genie.Task) => x.wwise_resource_deposit_sound_id, fun x y => { x with wwise_resource_deposit_sound_id := y }⟩ where
  self _ := rfl
  get_set _ _ := rfl
  fits x hx := by
    have hx : Task.WF v x := hx
    exact fits_i32.2 hx.wwise_resource_deposit_sound_id
  wf x hx y hy := by
    have hx : Task.WF v x := hx
    exact { hx with wwise_resource_deposit_sound_id := fits_i32.1 hy }
  splits x hx := by
    have hx : Task.WF v x := hx
    refine ⟨fun i => .packed .l (.int i), .l, ?_⟩
    show Splits _ (fun y => Task.layout v { x with wwise_resource_deposit_sound_id := y }) _
    by_cases hv : 88 ≤ v.num
    · simp only [Task.layout_flat88 v _ hv]
      walk Splits.here
    · simp only [Task.layout_flat84 v _ hv]
      walk Splits.here

theorem Task.intField_enabled (v : Version) (hv : 88 ≤ v.num) : IntField.OK (.record .Task) v ⟨"enabled", 2, true, fun (x : Genie.Task) => x.enabled, fun x y => { x with enabled := y }⟩ where
  self _ := rfl
  get_set _ _ := rfl
  fits x hx := by
    have hx : Task.WF v x := hx
    exact fits_i16.2 (hx.enabled.of_ge' hv)
  wf x hx y hy := by
    have hx : Task.WF v x := hx
    exact { hx with enabled := Since.of_ge hv (fits_i16.1 hy) }
  splits x hx := by
    have hx : Task.WF v x := hx
    refine ⟨fun i => .packed .h (.int i), .h, ?_⟩
    show Splits _ (fun y => Task.layout v { x with enabled := y }) _
    simp only [Task.layout_flat88 v _ hv]
    walk Splits.here

theorem Task.intFields (v : Version) : ∀ f ∈ Node.intFields v (.record .Task), IntField.OK (.record .Task) v f :=
  forall_append (forall_cons (Task.intField_task_type v) (forall_cons (Task.intField_id v) (forall_cons (Task.intField_is_default v) (forall_cons (Task.intField_action_type v) (forall_cons (Task.intField_class_id v) (forall_cons (Task.intField_unit_id v) (forall_cons (Task.intField_terrain_id v) (forall_cons (Task.intField_resource_in v) (forall_cons (Task.intField_resource_multiplier v) (forall_cons (Task.intField_resource_out v) (forall_cons (Task.intField_unused_resource v) (forall_cons (Task.intField_auto_search_targets v) (forall_cons (Task.intField_enable_targeting v) (forall_cons (Task.intField_combat_level_flag v) (forall_cons (Task.intField_gather_type v) (forall_cons (Task.intField_work_flag_2 v) (forall_cons (Task.intField_target_diplomacy v) (forall_cons (Task.intField_carry_check v) (forall_cons (Task.intField_pick_for_construction v) (forall_cons (Task.intField_moving_graphic_id v) (forall_cons (Task.intField_proceeding_graphic_id v) (forall_cons (Task.intField_working_graphic_id v) (forall_cons (Task.intField_carrying_graphic_id v) (forall_cons (Task.intField_resource_gathering_sound_id v) (forall_cons (Task.intField_resource_deposit_sound_id v) (forall_cons (Task.intField_wwise_resource_gathering_sound_id v) (forall_cons (Task.intField_wwise_resource_deposit_sound_id v) (forall_nil)))))))))))))))))))))))))))) (forall_ite fun hv => forall_cons (Task.intField_enabled v hv) (forall_nil))

theorem Bird.intField_default_task_id (v : Version) : IntField.OK (.record .Bird) v ⟨"default_task_id", 2, true, fun (x : Genie.Bird) => x.default_task_id, fun x y => { x with default_task_id := y }⟩ where
  self _ := rfl
  get_set _ _ := rfl
  fits x hx := by
    have hx : Bird.WF v x := hx
    exact fits_i16.2 hx.default_task_id
  wf x hx y hy := by
    have hx : Bird.WF v x := hx
    exact { hx with default_task_id := fits_i16.1 hy }
  splits x hx := by
    have hx : Bird.WF v x := hx
    refine ⟨fun i => .int 2 true i, .int _ _, ?_⟩
    show Splits _ (fun y => Bird.layout v { x with default_task_id := y }) _
    simp only [Bird.layout]
    walk Splits.here

theorem Bird.intField_task_swap_group (v : Version) : IntField.OK (.record .Bird) v ⟨"task_swap_group", 1, false, fun (x : Genie.Bird) => x.task_swap_group, fun x y => { x with task_swap_group := y }⟩ where
  self _ := rfl
  get_set _ _ := rfl
  fits x hx := by
    have hx : Bird.WF v x := hx
    exact fits_u8.2 hx.task_swap_group
  wf x hx y hy := by
    have hx : Bird.WF v x := hx
    exact { hx with task_swap_group := fits_u8.1 hy }
  splits x hx := by
    have hx : Bird.WF v x := hx
    refine ⟨fun i => .int 1 false i, .int _ _, ?_⟩
    show Splits _ (fun y => Bird.layout v { x with task_swap_group := y }) _
    simp only [Bird.layout]
    walk Splits.here

theorem Bird.intField_attack_sound (v : Version) : IntField.OK (.record .Bird) v ⟨"attack_sound", 2, true, fun (x : Genie.Bird) => x.attack_sound, fun x y => { x with attack_sound := y }⟩ where
  self _ := rfl
  get_set _ _ := rfl
  fits x hx := by
    have hx : Bird.WF v x := hx
    exact fits_i16.2 hx.attack_sound
  wf x hx y hy := by
    have hx : Bird.WF v x := hx
    exact { hx with attack_sound := fits_i16.1 hy }
  splits x hx := by
    have hx : Bird.WF v x := hx
    refine ⟨fun i => .int 2 true i, .int _ _, ?_⟩
    show Splits _ (fun y => Bird.layout v { x with attack_sound := y }) _
    simp only [Bird.layout]
    walk Splits.here

theorem Bird.intField_move_sound (v : Version) : IntField.OK (.record .Bird) v ⟨"move_sound", 2, true, fun (x : Genie.Bird) => x.move_sound, fun x y => { x with move_sound := y }⟩ where
  self _ := rfl
  get_set _ _ := rfl
  fits x hx := by
    have hx : Bird.WF v x := hx
    exact fits_i16.2 hx.move_sound
  wf x hx y hy := by
    have hx : Bird.WF v x := hx
    exact { hx with move_sound := fits_i16.1 hy }
  splits x hx := by
    have hx : Bird.WF v x := hx
    refine ⟨fun i => .int 2 true i, .int _ _, ?_⟩
    show Splits _ (fun y => Bird.layout v { x with move_sound := y }) _
    simp only [Bird.layout]
    walk Splits.here

theorem Bird.intField_wwise_attack_sound_id (v : Version) : IntField.OK (.record .Bird) v ⟨"wwise_attack_sound_id", 4, true, fun (x : Genie.Bird) => x.wwise_attack_sound_id, fun x y => { x with wwise_attack_sound_id := y }⟩ where
  self _ := rfl
  get_set _ _ := rfl
  fits x hx := by
    have hx : Bird.WF v x := hx
    exact fits_i32.2 hx.wwise_attack_sound_id
  wf x hx y hy := by
    have hx : Bird.WF v x := hx
    exact { hx with wwise_attack_sound_id := fits_i32.1 hy }
  splits x hx := by
    have hx : Bird.WF v x := hx
    refine ⟨fun i => .int 4 true i, .int _ _, ?_⟩
    show Splits _ (fun y => Bird.layout v { x with wwise_attack_sound_id := y }) _
    simp only [Bird.layout]
    walk Splits.here

theorem Bird.intField_wwise_move_sound_id (v : Version) : IntField.OK (.record .Bird) v ⟨"wwise_move_sound_id", 4, true, fun (x : Genie.Bird) => x.wwise_move_sound_id, fun x y => { x with wwise_move_sound_id := y }⟩ where
  self _ := rfl
  get_set _ _ := rfl
  fits x hx := by
    have hx : Bird.WF v x := hx
    exact fits_i32.2 hx.wwise_move_sound_id
  wf x hx y hy := by
    have hx : Bird.WF v x := hx
    exact { hx with wwise_move_sound_id := fits_i32.1 hy }
  splits x hx := by
    have hx : Bird.WF v x := hx
    refine ⟨fun i => .int 4 true i, .int _ _, ?_⟩
    show Splits _ (fun y => Bird.layout v { x with wwise_move_sound_id := y }) _
    simp only [Bird.layout]
    walk Splits.here

theorem Bird.intField_run_pattern (v : Version) : IntField.OK (.record .Bird) v ⟨"run_pattern", 1, false, fun (x : Genie.Bird) => x.run_pattern, fun x y => { x with run_pattern := y }⟩ where
  self _ := rfl
  get_set _ _ := rfl
  fits x hx := by
    have hx : Bird.WF v x := hx
    exact fits_u8.2 hx.run_pattern
  wf x hx y hy := by
    have hx : Bird.WF v x := hx
    exact { hx with run_pattern := fits_u8.1 hy }
  splits x hx := by
    have hx : Bird.WF v x := hx
    refine ⟨fun i => .int 1 false i, .int _ _, ?_⟩
    show Splits _ (fun y => Bird.layout v { x with run_pattern := y }) _
    simp only [Bird.layout]
    walk Splits.here

theorem Bird.intFields (v : Version) : ∀ f ∈ Node.intFields v (.record .Bird), IntField.OK (.record .Bird) v f :=
  forall_cons (Bird.intField_default_task_id v) (forall_cons (Bird.intField_task_swap_group v) (forall_cons (Bird.intField_attack_sound v) (forall_cons (Bird.intField_move_sound v) (forall_cons (Bird.intField_wwise_attack_sound_id v) (forall_cons (Bird.intField_wwise_move_sound_id v) (forall_cons (Bird.intField_run_pattern v) (forall_nil)))))))

theorem AttackOrArmor.intField_class_ (v : Version) : IntField.OK (.record .AttackOrArmor) v ⟨"class_", 2, true, fun (x : Genie.AttackOrArmor) => x.class_, fun x y => { x with class_ := y }⟩ where
  self _ := rfl
  get_set _ _ := rfl
  fits x hx := by
    have hx : AttackOrArmor.WF v x := hx
    exact fits_i16.2 hx.class_
  wf x hx y hy := by
    have hx : AttackOrArmor.WF v x := hx
    exact { hx with class_ := fits_i16.1 hy }
  splits x hx := by
    have hx : AttackOrArmor.WF v x := hx
    refine ⟨fun i => .packed .h (.int i), .h, ?_⟩
    show Splits _ (fun y => AttackOrArmor.layout v { x with class_ := y }) _
    simp only [AttackOrArmor.layout_flat]
    walk Splits.here

theorem AttackOrArmor.intField_amount (v : Version) : IntField.OK (.record .AttackOrArmor) v ⟨"amount", 2, true, fun (x : Genie.AttackOrArmor) => x.amount, fun x y => { x with amount := y }⟩ where
  self _ := rfl
  get_set _ _ := rfl
  fits x hx := by
    have hx : AttackOrArmor.WF v x := hx
    exact fits_i16.2 hx.amount
  wf x hx y hy := by
    have hx : AttackOrArmor.WF v x := hx
    exact { hx with amount := fits_i16.1 hy }
  splits x hx := by
    have hx : AttackOrArmor.WF v x := hx
    refine ⟨fun i => .packed .h (.int i), .h, ?_⟩
    show Splits _ (fun y => AttackOrArmor.layout v { x with amount := y }) _
    simp only [AttackOrArmor.layout_flat]
    walk Splits.here

theorem AttackOrArmor.intFields (v : Version) : ∀ f ∈ Node.intFields v (.record .AttackOrArmor), IntField.OK (.record .AttackOrArmor) v f :=
  forall_cons (AttackOrArmor.intField_class_ v) (forall_cons (AttackOrArmor.intField_amount v) (forall_nil))

theorem Type50.intField_base_armor (v : Version) : IntField.OK (.record .Type50) v ⟨"base_armor", 2, true, fun (x : Genie.Type50) => x.base_armor, fun x y => { x with base_armor := y }⟩ where
  self _ := rfl
  get_set _ _ := rfl
  fits x hx := by
    have hx : Type50.WF v x := hx
    exact fits_i16.2 hx.base_armor
  wf x hx y hy := by
    have hx : Type50.WF v x := hx
    exact { hx with base_armor := fits_i16.1 hy }
  splits x hx := by
    have hx : Type50.WF v x := hx
    refine ⟨fun i => .int 2 true i, .int _ _, ?_⟩
    show Splits _ (fun y => Type50.layout v { x with base_armor := y }) _
    simp only [Type50.layout]
    walk Splits.here

theorem Type50.intField_defense_terrain_bonus (v : Version) : IntField.OK (.record .Type50) v ⟨"defense_terrain_bonus", 2, true, fun (x : Genie.Type50) => x.defense_terrain_bonus, fun x y => { x with defense_terrain_bonus := y }⟩ where
  self _ := rfl
  get_set _ _ := rfl
  fits x hx := by
    have hx : Type50.WF v x := hx
    exact fits_i16.2 hx.defense_terrain_bonus
  wf x hx y hy := by
    have hx : Type50.WF v x := hx
    exact { hx with defense_terrain_bonus := fits_i16.1 hy }
  splits x hx := by
    have hx : Type50.WF v x := hx
    refine ⟨fun i => .int 2 true i, .int _ _, ?_⟩
    show Splits _ (fun y => Type50.layout v { x with defense_terrain_bonus := y }) _
    simp only [Type50.layout]
    walk Splits.here

theorem Type50.intField_projectile_unit_id (v : Version) : IntField.OK (.record .Type50) v ⟨"projectile_unit_id", 2, true, fun (x : Genie.Type50) => x.projectile_unit_id, fun x y => { x with projectile_unit_id := y }⟩ where
  self _ := rfl
  get_set _ _ := rfl
  fits x hx := by
    have hx : Type50.WF v x := hx
    exact fits_i16.2 hx.projectile_unit_id
  wf x hx y hy := by
    have hx : Type50.WF v x := hx
    exact { hx with projectile_unit_id := fits_i16.1 hy }
  splits x hx := by
    have hx : Type50.WF v x := hx
    refine ⟨fun i => .int 2 true i, .int _ _, ?_⟩
    show Splits _ (fun y => Type50.layout v { x with projectile_unit_id := y }) _
    simp only [Type50.layout]
    walk Splits.here

theorem Type50.intField_accuracy_percent (v : Version) : IntField.OK (.record .Type50) v ⟨"accuracy_percent", 2, true, fun (x : Genie.Type50) => x.accuracy_percent, fun x y => { x with accuracy_percent := y }⟩ where
  self _ := rfl
  get_set _ _ := rfl
  fits x hx := by
    have hx : Type50.WF v x := hx
    exact fits_i16.2 hx.accuracy_percent
  wf x hx y hy := by
    have hx : Type50.WF v x := hx
    exact { hx with accuracy_percent := fits_i16.1 hy }
  splits x hx := by
    have hx : Type50.WF v x := hx
    refine ⟨fun i => .int 2 true i, .int _ _, ?_⟩
    show Splits _ (fun y => Type50.layout v { x with accuracy_percent := y }) _
    simp only [Type50.layout]
    walk Splits.here

theorem Type50.intField_break_off_combat (v : Version) : IntField.OK (.record .Type50) v ⟨"break_off_combat", 1, false, fun (x : Genie.Type50) => x.break_off_combat, fun x y => { x with break_off_combat := y }⟩ where
  self _ := rfl
  get_set _ _ := rfl
  fits x hx := by
    have hx : Type50.WF v x := hx
    exact fits_u8.2 hx.break_off_combat
  wf x hx y hy := by
    have hx : Type50.WF v x := hx
    exact { hx with break_off_combat := fits_u8.1 hy }
  splits x hx := by
    have hx : Type50.WF v x := hx
    refine ⟨fun i => .int 1 false i, .int _ _, ?_⟩
    show Splits _ (fun y => Type50.layout v { x with break_off_combat := y }) _
    simp only [Type50.layout]
    walk Splits.here

theorem Type50.intField_frame_delay (v : Version) : IntField.OK (.record .Type50) v ⟨"frame_delay", 2, true, fun (x : Genie.Type50) => x.frame_delay, fun x y => { x with frame_delay := y }⟩ where
  self _ := rfl
  get_set _ _ := rfl
  fits x hx := by
    have hx : Type50.WF v x := hx
    exact fits_i16.2 hx.frame_delay
  wf x hx y hy := by
    have hx : Type50.WF v x := hx
    exact { hx with frame_delay := fits_i16.1 hy }
  splits x hx := by
    have hx : Type50.WF v x := hx
    refine ⟨fun i => .int 2 true i, .int _ _, ?_⟩
    show Splits _ (fun y => Type50.layout v { x with frame_delay := y }) _
    simp only [Type50.layout]
    walk Splits.here

theorem Type50.intField_blast_attack_level (v : Version) : IntField.OK (.record .Type50) v ⟨"blast_attack_level", 1, false, fun (x : Genie.Type50) => x.blast_attack_level, fun x y => { x with blast_attack_level := y }⟩ where
  self _ := rfl
  get_set _ _ := rfl
  fits x hx := by
    have hx : Type50.WF v x := hx
    exact fits_u8.2 hx.blast_attack_level
  wf x hx y hy := by
    have hx : Type50.WF v x := hx
    exact { hx with blast_attack_level := fits_u8.1 hy }
  splits x hx := by
    have hx : Type50.WF v x := hx
    refine ⟨fun i => .int 1 false i, .int _ _, ?_⟩
    show Splits _ (fun y => Type50.layout v { x with blast_attack_level := y }) _
    simp only [Type50.layout]
    walk Splits.here

theorem Type50.intField_attack_graphic (v : Version) : IntField.OK (.record .Type50) v ⟨"attack_graphic", 2, true, fun (x : Genie.Type50) => x.attack_graphic, fun x y => { x with attack_graphic := y }⟩ where
  self _ := rfl
  get_set _ _ := rfl
  fits x hx := by
    have hx : Type50.WF v x := hx
    exact fits_i16.2 hx.attack_graphic
  wf x hx y hy := by
    have hx : Type50.WF v x := hx
    exact { hx with attack_graphic := fits_i16.1 hy }
  splits x hx := by
    have hx : Type50.WF v x := hx
    refine ⟨fun i => .int 2 true i, .int _ _, ?_⟩
    show Splits _ (fun y => Type50.layout v { x with attack_graphic := y }) _
    simp only [Type50.layout]
    walk Splits.here

theorem Type50.intField_displayed_melee_armour (v : Version) : IntField.OK (.record .Type50) v ⟨"displayed_melee_armour", 2, true, fun (x : Genie.Type50) => x.displayed_melee_armour, fun x y => { x with displayed_melee_armour := y }⟩ where
  self _ := rfl
  get_set _ _ := rfl
  fits x hx := by
    have hx : Type50.WF v x := hx
    exact fits_i16.2 hx.displayed_melee_armour
  wf x hx y hy := by
    have hx : Type50.WF v x := hx
    exact { hx with displayed_melee_armour := fits_i16.1 hy }
  splits x hx := by
    have hx : Type50.WF v x := hx
    refine ⟨fun i => .int 2 true i, .int _ _, ?_⟩
    show Splits _ (fun y => Type50.layout v { x with displayed_melee_armour := y }) _
    simp only [Type50.layout]
    walk Splits.here

theorem Type50.intField_displayed_attack (v : Version) : IntField.OK (.record .Type50) v ⟨"displayed_attack", 2, true, fun (x : Genie.Type50) => x.displayed_attack, fun x y => { x with displayed_attack := y }⟩ where
  self _ := rfl
  get_set _ _ := rfl
  fits x hx := by
    have hx : Type50.WF v x := hx
    exact fits_i16.2 hx.displayed_attack
  wf x hx y hy := by
    have hx : Type50.WF v x := hx
    exact { hx with displayed_attack := fits_i16.1 hy }
  splits x hx := by
    have hx : Type50.WF v x := hx
    refine ⟨fun i => .int 2 true i, .int _ _, ?_⟩
    show Splits _ (fun y => Type50.layout v { x with displayed_attack := y }) _
    simp only [Type50.layout]
    walk Splits.here

theorem Type50.intField_interrupt_frame (v : Version) (hv : 84 ≤ v.num) : IntField.OK (.record .Type50) v ⟨"interrupt_frame", 2, true, fun (x : Genie.Type50) => x.interrupt_frame, fun x y => { x with interrupt_frame := y }⟩ where
  self _ := rfl
  get_set _ _ := rfl
  fits x hx := by
    have hx : Type50.WF v x := hx
    exact fits_i16.2 (hx.interrupt_frame.of_ge' hv)
  wf x hx y hy := by
    have hx : Type50.WF v x := hx
    exact { hx with interrupt_frame := Since.of_ge hv (fits_i16.1 hy) }
  splits x hx := by
    have hx : Type50.WF v x := hx
    refine ⟨fun i => .int 2 true i, .int _ _, ?_⟩
    show Splits _ (fun y => Type50.layout v { x with interrupt_frame := y }) _
    simp only [Type50.layout, since, if_pos hv]
    repeat (with_reducible apply Splits.tail)
    apply Splits.head
    walk Splits.here

theorem Type50.intField_attack_graphic_2 (v : Version) (hv : 84 ≤ v.num) : IntField.OK (.record .Type50) v ⟨"attack_graphic_2", 2, true, fun (x : Genie.Type50) => x.attack_graphic_2, fun x y => { x with attack_graphic_2 := y }⟩ where
  self _ := rfl
  get_set _ _ := rfl
  fits x hx := by
    have hx : Type50.WF v x := hx
    exact fits_i16.2 (hx.attack_graphic_2.of_ge' hv)
  wf x hx y hy := by
    have hx : Type50.WF v x := hx
    exact { hx with attack_graphic_2 := Since.of_ge hv (fits_i16.1 hy) }
  splits x hx := by
    have hx : Type50.WF v x := hx
    refine ⟨fun i => .int 2 true i, .int _ _, ?_⟩
    show Splits _ (fun y => Type50.layout v { x with attack_graphic_2 := y }) _
    simp only [Type50.layout, since, if_pos hv]
    repeat (with_reducible apply Splits.tail)
    apply Splits.head
    walk Splits.here

theorem Type50.intFields (v : Version) : ∀ f ∈ Node.intFields v (.record .Type50), IntField.OK (.record .Type50) v f :=
  forall_append (forall_cons (Type50.intField_base_armor v) (forall_cons (Type50.intField_defense_terrain_bonus v) (forall_cons (Type50.intField_projectile_unit_id v) (forall_cons (Type50.intField_accuracy_percent v) (forall_cons (Type50.intField_break_off_combat v) (forall_cons (Type50.intField_frame_delay v) (forall_cons (Type50.intField_blast_attack_level v) (forall_cons (Type50.intField_attack_graphic v) (forall_cons (Type50.intField_displayed_melee_armour v) (forall_cons (Type50.intField_displayed_attack v) (forall_nil))))))))))) (forall_ite fun hv => forall_cons (Type50.intField_interrupt_frame v hv) (forall_cons (Type50.intField_attack_graphic_2 v hv) (forall_nil)))

theorem Projectile.intField_projectile_type (v : Version) : IntField.OK (.record .Projectile) v ⟨"projectile_type", 1, true, fun (x : Genie.Projectile) => x.projectile_type, fun x y => { x with projectile_type := y }⟩ where
  self _ := rfl
  get_set _ _ := rfl
  fits x hx := by
    have hx : Projectile.WF v x := hx
    exact fits_i8.2 hx.projectile_type
  wf x hx y hy := by
    have hx : Projectile.WF v x := hx
    exact { hx with projectile_type := fits_i8.1 hy }
  splits x hx := by
    have hx : Projectile.WF v x := hx
    refine ⟨fun i => .packed .b (.int i), .b, ?_⟩
    show Splits _ (fun y => Projectile.layout v { x with projectile_type := y }) _
    simp only [Projectile.layout_flat]
    walk Splits.here

theorem Projectile.intField_smart_mode (v : Version) : IntField.OK (.record .Projectile) v ⟨"smart_mode", 1, true, fun (x : Genie.Projectile) => x.smart_mode, fun x y => { x with smart_mode := y }⟩ where
  self _ := rfl
  get_set _ _ := rfl
  fits x hx := by
    have hx : Projectile.WF v x := hx
    exact fits_i8.2 hx.smart_mode
  wf x hx y hy := by
    have hx : Projectile.WF v x := hx
    exact { hx with smart_mode := fits_i8.1 hy }
  splits x hx := by
    have hx : Projectile.WF v x := hx
    refine ⟨fun i => .packed .b (.int i), .b, ?_⟩
    show Splits _ (fun y => Projectile.layout v { x with smart_mode := y }) _
    simp only [Projectile.layout_flat]
    walk Splits.here

theorem Projectile.intField_hit_mode (v : Version) : IntField.OK (.record .Projectile) v ⟨"hit_mode", 1, true, fun (x : Genie.Projectile) => x.hit_mode, fun x y => { x with hit_mode := y }⟩ where
  self _ := rfl
  get_set _ _ := rfl
  fits x hx := by
    have hx : Projectile.WF v x := hx
    exact fits_i8.2 hx.hit_mode
  wf x hx y hy := by
    have hx : Projectile.WF v x := hx
    exact { hx with hit_mode := fits_i8.1 hy }
  splits x hx := by
    have hx : Projectile.WF v x := hx
    refine ⟨fun i => .packed .b (.int i), .b, ?_⟩
    show Splits _ (fun y => Projectile.layout v { x with hit_mode := y }) _
    simp only [Projectile.layout_flat]
    walk Splits.here

theorem Projectile.intField_vanish_mode (v : Version) : IntField.OK (.record .Projectile) v ⟨"vanish_mode", 1, true, fun (x : Genie.Projectile) => x.vanish_mode, fun x y => { x with vanish_mode := y }⟩ where
  self _ := rfl
  get_set _ _ := rfl
  fits x hx := by
    have hx : Projectile.WF v x := hx
    exact fits_i8.2 hx.vanish_mode
  wf x hx y hy := by
    have hx : Projectile.WF v x := hx
    exact { hx with vanish_mode := fits_i8.1 hy }
  splits x hx := by
    have hx : Projectile.WF v x := hx
    refine ⟨fun i => .packed .b (.int i), .b, ?_⟩
    show Splits _ (fun y => Projectile.layout v { x with vanish_mode := y }) _
    simp only [Projectile.layout_flat]
    walk Splits.here

theorem Projectile.intField_area_effect_specials (v : Version) : IntField.OK (.record .Projectile) v ⟨"area_effect_specials", 1, true, fun (x : Genie.Projectile) => x.area_effect_specials, fun x y => { x with area_effect_specials := y }⟩ where
  self _ := rfl
  get_set _ _ := rfl
  fits x hx := by
    have hx : Projectile.WF v x := hx
    exact fits_i8.2 hx.area_effect_specials
  wf x hx y hy := by
    have hx : Projectile.WF v x := hx
    exact { hx with area_effect_specials := fits_i8.1 hy }
  splits x hx := by
    have hx : Projectile.WF v x := hx
    refine ⟨fun i => .packed .b (.int i), .b, ?_⟩
    show Splits _ (fun y => Projectile.layout v { x with area_effect_specials := y }) _
    simp only [Projectile.layout_flat]
    walk Splits.here

theorem Projectile.intFields (v : Version) : ∀ f ∈ Node.intFields v (.record .Projectile), IntField.OK (.record .Projectile) v f :=
  forall_cons (Projectile.intField_projectile_type v) (forall_cons (Projectile.intField_smart_mode v) (forall_cons (Projectile.intField_hit_mode v) (forall_cons (Projectile.intField_vanish_mode v) (forall_cons (Projectile.intField_area_effect_specials v) (forall_nil)))))

theorem ResourceCost.intField_type (v : Version) : IntField.OK (.record .ResourceCost) v ⟨"type", 2, true, fun (x : Genie.ResourceCost) => x.type, fun x y => { x with type := y }⟩ where
  self _ := rfl
  get_set _ _ := rfl
  fits x hx := by
    have hx : ResourceCost.WF v x := hx
    exact fits_i16.2 hx.type
  wf x hx y hy := by
    have hx : ResourceCost.WF v x := hx
    exact { hx with type := fits_i16.1 hy }
  splits x hx := by
    have hx : ResourceCost.WF v x := hx
    refine ⟨fun i => .packed .h (.int i), .h, ?_⟩
    show Splits _ (fun y => ResourceCost.layout v { x with type := y }) _
    simp only [ResourceCost.layout_flat]
    walk Splits.here

theorem ResourceCost.intField_amount (v : Version) : IntField.OK (.record .ResourceCost) v ⟨"amount", 2, true, fun (x : Genie.ResourceCost) => x.amount, fun x y => { x with amount := y }⟩ where
  self _ := rfl
  get_set _ _ := rfl
  fits x hx := by
    have hx : ResourceCost.WF v x := hx
    exact fits_i16.2 hx.amount
  wf x hx y hy := by
    have hx : ResourceCost.WF v x := hx
    exact { hx with amount := fits_i16.1 hy }
  splits x hx := by
    have hx : ResourceCost.WF v x := hx
    refine ⟨fun i => .packed .h (.int i), .h, ?_⟩
    show Splits _ (fun y => ResourceCost.layout v { x with amount := y }) _
    simp only [ResourceCost.layout_flat]
    walk Splits.here

theorem ResourceCost.intField_flag (v : Version) : IntField.OK (.record .ResourceCost) v ⟨"flag", 2, true, fun (x : Genie.ResourceCost) => x.flag, fun x y => { x with flag := y }⟩ where
  self _ := rfl
  get_set _ _ := rfl
  fits x hx := by
    have hx : ResourceCost.WF v x := hx
    exact fits_i16.2 hx.flag
  wf x hx y hy := by
    have hx : ResourceCost.WF v x := hx
    exact { hx with flag := fits_i16.1 hy }
  splits x hx := by
    have hx : ResourceCost.WF v x := hx
    refine ⟨fun i => .packed .h (.int i), .h, ?_⟩
    show Splits _ (fun y => ResourceCost.layout v { x with flag := y }) _
    simp only [ResourceCost.layout_flat]
    walk Splits.here

theorem ResourceCost.intFields (v : Version) : ∀ f ∈ Node.intFields v (.record .ResourceCost), IntField.OK (.record .ResourceCost) v f :=
  forall_cons (ResourceCost.intField_type v) (forall_cons (ResourceCost.intField_amount v) (forall_cons (ResourceCost.intField_flag v) (forall_nil)))

theorem TrainLocation.intField_train_time (v : Version) : IntField.OK (.record .TrainLocation) v ⟨"train_time", 2, true, fun (x : Genie.TrainLocation) => x.train_time, fun x y => { x with train_time := y }⟩ where
  self _ := rfl
  get_set _ _ := rfl
  fits x hx := by
    have hx : TrainLocation.WF v x := hx
    exact fits_i16.2 hx.train_time
  wf x hx y hy := by
    have hx : TrainLocation.WF v x := hx
    exact { hx with train_time := fits_i16.1 hy }
  splits x hx := by
    have hx : TrainLocation.WF v x := hx
    refine ⟨fun i => .packed .h (.int i), .h, ?_⟩
    show Splits _ (fun y => TrainLocation.layout v { x with train_time := y }) _
    by_cases hv : 88 ≤ v.num
    · simp only [TrainLocation.layout_flat88 v _ hv]
      walk Splits.here
    · simp only [TrainLocation.layout_flat84 v _ hv]
      walk Splits.here

theorem TrainLocation.intField_unit_id (v : Version) : IntField.OK (.record .TrainLocation) v ⟨"unit_id", 2, true, fun (x : Genie.TrainLocation) => x.unit_id, fun x y => { x with unit_id := y }⟩ where
  self _ := rfl
  get_set _ _ := rfl
  fits x hx := by
    have hx : TrainLocation.WF v x := hx
    exact fits_i16.2 hx.unit_id
  wf x hx y hy := by
    have hx : TrainLocation.WF v x := hx
    exact { hx with unit_id := fits_i16.1 hy }
  splits x hx := by
    have hx : TrainLocation.WF v x := hx
    refine ⟨fun i => .packed .h (.int i), .h, ?_⟩
    show Splits _ (fun y => TrainLocation.layout v { x with unit_id := y }) _
    by_cases hv : 88 ≤ v.num
    · simp only [TrainLocation.layout_flat88 v _ hv]
      walk Splits.here
    · simp only [TrainLocation.layout_flat84 v _ hv]
      walk Splits.here

theorem TrainLocation.intField_button_id (v : Version) : IntField.OK (.record .TrainLocation) v ⟨"button_id", 1, true, fun (x : Genie.TrainLocation) => x.button_id, fun x y => { x with button_id := y }⟩ where
  self _ := rfl
  get_set _ _ := rfl
  fits x hx := by
    have hx : TrainLocation.WF v x := hx
    exact fits_i8.2 hx.button_id
  wf x hx y hy := by
    have hx : TrainLocation.WF v x := hx
    exact { hx with button_id := fits_i8.1 hy }
  splits x hx := by
    have hx : TrainLocation.WF v x := hx
    refine ⟨fun i => .packed .b (.int i), .b, ?_⟩
    show Splits _ (fun y => TrainLocation.layout v { x with button_id := y }) _
    by_cases hv : 88 ≤ v.num
    · simp only [TrainLocation.layout_flat88 v _ hv]
      walk Splits.here
    · simp only [TrainLocation.layout_flat84 v _ hv]
      walk Splits.here

theorem TrainLocation.intField_hot_key_id (v : Version) (hv : 88 ≤ v.num) : IntField.OK (.record .TrainLocation) v ⟨"hot_key_id", 4, true, fun (x : Genie.TrainLocation) => x.hot_key_id, fun x y => { x with hot_key_id := y }⟩ where
  self _ := rfl
  get_set _ _ := rfl
  fits x hx := by
    have hx : TrainLocation.WF v x := hx
    exact fits_i32.2 (hx.hot_key_id.of_ge' hv)
  wf x hx y hy := by
    have hx : TrainLocation.WF v x := hx
    exact { hx with hot_key_id := Since.of_ge hv (fits_i32.1 hy) }
  splits x hx := by
    have hx : TrainLocation.WF v x := hx
    refine ⟨fun i => .packed .l (.int i), .l, ?_⟩
    show Splits _ (fun y => TrainLocation.layout v { x with hot_key_id := y }) _
    simp only [TrainLocation.layout_flat88 v _ hv]
    walk Splits.here

theorem TrainLocation.intFields (v : Version) : ∀ f ∈ Node.intFields v (.record .TrainLocation), IntField.OK (.record .TrainLocation) v f :=
  forall_append (forall_cons (TrainLocation.intField_train_time v) (forall_cons (TrainLocation.intField_unit_id v) (forall_cons (TrainLocation.intField_button_id v) (forall_nil)))) (forall_ite fun hv => forall_cons (TrainLocation.intField_hot_key_id v hv) (forall_nil))

theorem Creatable.intField_creatable_type (v : Version) : IntField.OK (.record .Creatable) v ⟨"creatable_type", 1, true, fun (x : Genie.Creatable) => x.creatable_type, fun x y => { x with creatable_type := y }⟩ where
  self _ := rfl
  get_set _ _ := rfl
  fits x hx := by
    obtain ⟨hk, hx⟩ : ∃ hk, Creatable.WFWith v hk x := hx
    exact fits_i8.2 hx.creatable_type
  wf x hx y hy := by
    obtain ⟨hk, hx⟩ : ∃ hk, Creatable.WFWith v hk x := hx
    exact ⟨hk, { hx with creatable_type := fits_i8.1 hy }⟩
  splits x hx := by
    obtain ⟨hk, hx⟩ : ∃ hk, Creatable.WFWith v hk x := hx
    refine ⟨fun i => .packed .b (.int i), .b, ?_⟩
    show Splits _ (fun y => Creatable.layout v { x with creatable_type := y }) _
    obtain ⟨a0, a1, a2, ha⟩ := Exactly.three hx.projectile_spawning_area
    by_cases h88 : 88 ≤ v.num
    · refine Splits.congr ?_ (fun y _ => Creatable.layout_flat88 v { x with creatable_type := y } a0 a1 a2 ha h88)
      dsimp only
      walk Splits.here
    · obtain ⟨t, ht, -⟩ := hx.train_locations.of_lt' h88
      by_cases h84 : 84 ≤ v.num
      · refine Splits.congr ?_ (fun y _ => Creatable.layout_flat84 v { x with creatable_type := y } a0 a1 a2 ha h88 h84 t ht)
        dsimp only
        walk Splits.here
      · refine Splits.congr ?_ (fun y _ => Creatable.layout_flat77 v { x with creatable_type := y } a0 a1 a2 ha h88 h84 t ht)
        dsimp only
        walk Splits.here

theorem Creatable.intField_hero_mode (v : Version) : IntField.OK (.record .Creatable) v ⟨"hero_mode", 1, true, fun (x : Genie.Creatable) => x.hero_mode, fun x y => { x with hero_mode := y }⟩ where
  self _ := rfl
  get_set _ _ := rfl
  fits x hx := by
    obtain ⟨hk, hx⟩ : ∃ hk, Creatable.WFWith v hk x := hx
    exact fits_i8.2 hx.hero_mode
  wf x hx y hy := by
    obtain ⟨hk, hx⟩ : ∃ hk, Creatable.WFWith v hk x := hx
    exact ⟨hk, { hx with hero_mode := fits_i8.1 hy }⟩
  splits x hx := by
    obtain ⟨hk, hx⟩ : ∃ hk, Creatable.WFWith v hk x := hx
    refine ⟨fun i => .packed .b (.int i), .b, ?_⟩
    show Splits _ (fun y => Creatable.layout v { x with hero_mode := y }) _
    obtain ⟨a0, a1, a2, ha⟩ := Exactly.three hx.projectile_spawning_area
    by_cases h88 : 88 ≤ v.num
    · refine Splits.congr ?_ (fun y _ => Creatable.layout_flat88 v { x with hero_mode := y } a0 a1 a2 ha h88)
      dsimp only
      walk Splits.here
    · obtain ⟨t, ht, -⟩ := hx.train_locations.of_lt' h88
      by_cases h84 : 84 ≤ v.num
      · refine Splits.congr ?_ (fun y _ => Creatable.layout_flat84 v { x with hero_mode := y } a0 a1 a2 ha h88 h84 t ht)
        dsimp only
        walk Splits.here
      · refine Splits.congr ?_ (fun y _ => Creatable.layout_flat77 v { x with hero_mode := y } a0 a1 a2 ha h88 h84 t ht)
        dsimp only
        walk Splits.here

theorem Creatable.intField_garrison_graphic (v : Version) : IntField.OK (.record .Creatable) v ⟨"garrison_graphic", 4, true, fun (x : Genie.Creatable) => x.garrison_graphic, fun x y => { x with garrison_graphic := y }⟩ where
  self _ := rfl
  get_set _ _ := rfl
  fits x hx := by
    obtain ⟨hk, hx⟩ : ∃ hk, Creatable.WFWith v hk x := hx
    exact fits_i32.2 hx.garrison_graphic
  wf x hx y hy := by
    obtain ⟨hk, hx⟩ : ∃ hk, Creatable.WFWith v hk x := hx
    exact ⟨hk, { hx with garrison_graphic := fits_i32.1 hy }⟩
  splits x hx := by
    obtain ⟨hk, hx⟩ : ∃ hk, Creatable.WFWith v hk x := hx
    refine ⟨fun i => .packed .l (.int i), .l, ?_⟩
    show Splits _ (fun y => Creatable.layout v { x with garrison_graphic := y }) _
    obtain ⟨a0, a1, a2, ha⟩ := Exactly.three hx.projectile_spawning_area
    by_cases h88 : 88 ≤ v.num
    · refine Splits.congr ?_ (fun y _ => Creatable.layout_flat88 v { x with garrison_graphic := y } a0 a1 a2 ha h88)
      dsimp only
      walk Splits.here
    · obtain ⟨t, ht, -⟩ := hx.train_locations.of_lt' h88
      by_cases h84 : 84 ≤ v.num
      · refine Splits.congr ?_ (fun y _ => Creatable.layout_flat84 v { x with garrison_graphic := y } a0 a1 a2 ha h88 h84 t ht)
        dsimp only
        walk Splits.here
      · refine Splits.congr ?_ (fun y _ => Creatable.layout_flat77 v { x with garrison_graphic := y } a0 a1 a2 ha h88 h84 t ht)
        dsimp only
        walk Splits.here

theorem Creatable.intField_spawning_graphic (v : Version) : IntField.OK (.record .Creatable) v ⟨"spawning_graphic", 2, true, fun (x : Genie.Creatable) => x.spawning_graphic, fun x y => { x with spawning_graphic := y }⟩ where
  self _ := rfl
  get_set _ _ := rfl
  fits x hx := by
    obtain ⟨hk, hx⟩ : ∃ hk, Creatable.WFWith v hk x := hx
    exact fits_i16.2 hx.spawning_graphic
  wf x hx y hy := by
    obtain ⟨hk, hx⟩ : ∃ hk, Creatable.WFWith v hk x := hx
    exact ⟨hk, { hx with spawning_graphic := fits_i16.1 hy }⟩
  splits x hx := by
    obtain ⟨hk, hx⟩ : ∃ hk, Creatable.WFWith v hk x := hx
    refine ⟨fun i => .packed .h (.int i), .h, ?_⟩
    show Splits _ (fun y => Creatable.layout v { x with spawning_graphic := y }) _
    obtain ⟨a0, a1, a2, ha⟩ := Exactly.three hx.projectile_spawning_area
    by_cases h88 : 88 ≤ v.num
    · refine Splits.congr ?_ (fun y _ => Creatable.layout_flat88 v { x with spawning_graphic := y } a0 a1 a2 ha h88)
      dsimp only
      walk Splits.here
    · obtain ⟨t, ht, -⟩ := hx.train_locations.of_lt' h88
      by_cases h84 : 84 ≤ v.num
      · refine Splits.congr ?_ (fun y _ => Creatable.layout_flat84 v { x with spawning_graphic := y } a0 a1 a2 ha h88 h84 t ht)
        dsimp only
        walk Splits.here
      · refine Splits.congr ?_ (fun y _ => Creatable.layout_flat77 v { x with spawning_graphic := y } a0 a1 a2 ha h88 h84 t ht)
        dsimp only
        walk Splits.here

theorem Creatable.intField_upgrade_graphic (v : Version) : IntField.OK (.record .Creatable) v ⟨"upgrade_graphic", 2, true, fun (x : Genie.Creatable) => x.upgrade_graphic, fun x y => { x with upgrade_graphic := y }⟩ where
  self _ := rfl
  get_set _ _ := rfl
  fits x hx := by
    obtain ⟨hk, hx⟩ : ∃ hk, Creatable.WFWith v hk x := hx
    exact fits_i16.2 hx.upgrade_graphic
  wf x hx y hy := by
    obtain ⟨hk, hx⟩ : ∃ hk, Creatable.WFWith v hk x := hx
    exact ⟨hk, { hx with upgrade_graphic := fits_i16.1 hy }⟩
  splits x hx := by
    obtain ⟨hk, hx⟩ : ∃ hk, Creatable.WFWith v hk x := hx
    refine ⟨fun i => .packed .h (.int i), .h, ?_⟩
    show Splits _ (fun y => Creatable.layout v { x with upgrade_graphic := y }) _
    obtain ⟨a0, a1, a2, ha⟩ := Exactly.three hx.projectile_spawning_area
    by_cases h88 : 88 ≤ v.num
    · refine Splits.congr ?_ (fun y _ => Creatable.layout_flat88 v { x with upgrade_graphic := y } a0 a1 a2 ha h88)
      dsimp only
      walk Splits.here
    · obtain ⟨t, ht, -⟩ := hx.train_locations.of_lt' h88
      by_cases h84 : 84 ≤ v.num
      · refine Splits.congr ?_ (fun y _ => Creatable.layout_flat84 v { x with upgrade_graphic := y } a0 a1 a2 ha h88 h84 t ht)
        dsimp only
        walk Splits.here
      · refine Splits.congr ?_ (fun y _ => Creatable.layout_flat77 v { x with upgrade_graphic := y } a0 a1 a2 ha h88 h84 t ht)
        dsimp only
        walk Splits.here

theorem Creatable.intField_hero_glow_graphic (v : Version) : IntField.OK (.record .Creatable) v ⟨"hero_glow_graphic", 2, true, fun (x : Genie.Creatable) => x.hero_glow_graphic, fun x y => { x with hero_glow_graphic := y }⟩ where
  self _ := rfl
  get_set _ _ := rfl
  fits x hx := by
    obtain ⟨hk, hx⟩ : ∃ hk, Creatable.WFWith v hk x := hx
    exact fits_i16.2 hx.hero_glow_graphic
  wf x hx y hy := by
    obtain ⟨hk, hx⟩ : ∃ hk, Creatable.WFWith v hk x := hx
    exact ⟨hk, { hx with hero_glow_graphic := fits_i16.1 hy }⟩
  splits x hx := by
    obtain ⟨hk, hx⟩ : ∃ hk, Creatable.WFWith v hk x := hx
    refine ⟨fun i => .packed .h (.int i), .h, ?_⟩
    show Splits _ (fun y => Creatable.layout v { x with hero_glow_graphic := y }) _
    obtain ⟨a0, a1, a2, ha⟩ := Exactly.three hx.projectile_spawning_area
    by_cases h88 : 88 ≤ v.num
    · refine Splits.congr ?_ (fun y _ => Creatable.layout_flat88 v { x with hero_glow_graphic := y } a0 a1 a2 ha h88)
      dsimp only
      walk Splits.here
    · obtain ⟨t, ht, -⟩ := hx.train_locations.of_lt' h88
      by_cases h84 : 84 ≤ v.num
      · refine Splits.congr ?_ (fun y _ => Creatable.layout_flat84 v { x with hero_glow_graphic := y } a0 a1 a2 ha h88 h84 t ht)
        dsimp only
        walk Splits.here
      · refine Splits.congr ?_ (fun y _ => Creatable.layout_flat77 v { x with hero_glow_graphic := y } a0 a1 a2 ha h88 h84 t ht)
        dsimp only
        walk Splits.here

theorem Creatable.intField_idle_attack_graphic (v : Version) (hv : 84 ≤ v.num) : IntField.OK (.record .Creatable) v ⟨"idle_attack_graphic", 2, true, fun (x : Genie.Creatable) => x.idle_attack_graphic, fun x y => { x with idle_attack_graphic := y }⟩ where
  self _ := rfl
  get_set _ _ := rfl
  fits x hx := by
    obtain ⟨hk, hx⟩ : ∃ hk, Creatable.WFWith v hk x := hx
    exact fits_i16.2 (hx.idle_attack_graphic.of_ge' hv)
  wf x hx y hy := by
    obtain ⟨hk, hx⟩ : ∃ hk, Creatable.WFWith v hk x := hx
    exact ⟨hk, { hx with idle_attack_graphic := Since.of_ge hv (fits_i16.1 hy) }⟩
  splits x hx := by
    obtain ⟨hk, hx⟩ : ∃ hk, Creatable.WFWith v hk x := hx
    refine ⟨fun i => .packed .h (.int i), .h, ?_⟩
    show Splits _ (fun y => Creatable.layout v { x with idle_attack_graphic := y }) _
    obtain ⟨a0, a1, a2, ha⟩ := Exactly.three hx.projectile_spawning_area
    by_cases h88 : 88 ≤ v.num
    · refine Splits.congr ?_ (fun y _ => Creatable.layout_flat88 v { x with idle_attack_graphic := y } a0 a1 a2 ha h88)
      dsimp only
      walk Splits.here
    · obtain ⟨t, ht, -⟩ := hx.train_locations.of_lt' h88
      refine Splits.congr ?_ (fun y _ => Creatable.layout_flat84 v { x with idle_attack_graphic := y } a0 a1 a2 ha h88 hv t ht)
      dsimp only
      walk Splits.here

theorem Creatable.intField_charge_event (v : Version) : IntField.OK (.record .Creatable) v ⟨"charge_event", 2, true, fun (x : Genie.Creatable) => x.charge_event, fun x y => { x with charge_event := y }⟩ where
  self _ := rfl
  get_set _ _ := rfl
  fits x hx := by
    obtain ⟨hk, hx⟩ : ∃ hk, Creatable.WFWith v hk x := hx
    exact fits_i16.2 hx.charge_event
  wf x hx y hy := by
    obtain ⟨hk, hx⟩ : ∃ hk, Creatable.WFWith v hk x := hx
    exact ⟨hk, { hx with charge_event := fits_i16.1 hy }⟩
  splits x hx := by
    obtain ⟨hk, hx⟩ : ∃ hk, Creatable.WFWith v hk x := hx
    refine ⟨fun i => .packed .h (.int i), .h, ?_⟩
    show Splits _ (fun y => Creatable.layout v { x with charge_event := y }) _
    obtain ⟨a0, a1, a2, ha⟩ := Exactly.three hx.projectile_spawning_area
    by_cases h88 : 88 ≤ v.num
    · refine Splits.congr ?_ (fun y _ => Creatable.layout_flat88 v { x with charge_event := y } a0 a1 a2 ha h88)
      dsimp only
      walk Splits.here
    · obtain ⟨t, ht, -⟩ := hx.train_locations.of_lt' h88
      by_cases h84 : 84 ≤ v.num
      · refine Splits.congr ?_ (fun y _ => Creatable.layout_flat84 v { x with charge_event := y } a0 a1 a2 ha h88 h84 t ht)
        dsimp only
        walk Splits.here
      · refine Splits.congr ?_ (fun y _ => Creatable.layout_flat77 v { x with charge_event := y } a0 a1 a2 ha h88 h84 t ht)
        dsimp only
        walk Splits.here

theorem Creatable.intField_charge_type (v : Version) : IntField.OK (.record .Creatable) v ⟨"charge_type", 2, true, fun (x : Genie.Creatable) => x.charge_type, fun x y => { x with charge_type := y }⟩ where
  self _ := rfl
  get_set _ _ := rfl
  fits x hx := by
    obtain ⟨hk, hx⟩ : ∃ hk, Creatable.WFWith v hk x := hx
    exact fits_i16.2 hx.charge_type
  wf x hx y hy := by
    obtain ⟨hk, hx⟩ : ∃ hk, Creatable.WFWith v hk x := hx
    exact ⟨hk, { hx with charge_type := fits_i16.1 hy }⟩
  splits x hx := by
    obtain ⟨hk, hx⟩ : ∃ hk, Creatable.WFWith v hk x := hx
    refine ⟨fun i => .packed .h (.int i), .h, ?_⟩
    show Splits _ (fun y => Creatable.layout v { x with charge_type := y }) _
    obtain ⟨a0, a1, a2, ha⟩ := Exactly.three hx.projectile_spawning_area
    by_cases h88 : 88 ≤ v.num
    · refine Splits.congr ?_ (fun y _ => Creatable.layout_flat88 v { x with charge_type := y } a0 a1 a2 ha h88)
      dsimp only
      walk Splits.here
    · obtain ⟨t, ht, -⟩ := hx.train_locations.of_lt' h88
      by_cases h84 : 84 ≤ v.num
      · refine Splits.congr ?_ (fun y _ => Creatable.layout_flat84 v { x with charge_type := y } a0 a1 a2 ha h88 h84 t ht)
        dsimp only
        walk Splits.here
      · refine Splits.congr ?_ (fun y _ => Creatable.layout_flat77 v { x with charge_type := y } a0 a1 a2 ha h88 h84 t ht)
        dsimp only
        walk Splits.here

theorem Creatable.intField_charge_target (v : Version) (hv : 84 ≤ v.num) : IntField.OK (.record .Creatable) v ⟨"charge_target", 2, true, fun (x : Genie.Creatable) => x.charge_target, fun x y => { x with charge_target := y }⟩ where
  self _ := rfl
  get_set _ _ := rfl
  fits x hx := by
    obtain ⟨hk, hx⟩ : ∃ hk, Creatable.WFWith v hk x := hx
    exact fits_i16.2 (hx.charge_target.of_ge' hv)
  wf x hx y hy := by
    obtain ⟨hk, hx⟩ : ∃ hk, Creatable.WFWith v hk x := hx
    exact ⟨hk, { hx with charge_target := Since.of_ge hv (fits_i16.1 hy) }⟩
  splits x hx := by
    obtain ⟨hk, hx⟩ : ∃ hk, Creatable.WFWith v hk x := hx
    refine ⟨fun i => .packed .h (.int i), .h, ?_⟩
    show Splits _ (fun y => Creatable.layout v { x with charge_target := y }) _
    obtain ⟨a0, a1, a2, ha⟩ := Exactly.three hx.projectile_spawning_area
    by_cases h88 : 88 ≤ v.num
    · refine Splits.congr ?_ (fun y _ => Creatable.layout_flat88 v { x with charge_target := y } a0 a1 a2 ha h88)
      dsimp only
      walk Splits.here
    · obtain ⟨t, ht, -⟩ := hx.train_locations.of_lt' h88
      refine Splits.congr ?_ (fun y _ => Creatable.layout_flat84 v { x with charge_target := y } a0 a1 a2 ha h88 hv t ht)
      dsimp only
      walk Splits.here

theorem Creatable.intField_charge_projectile_unit (v : Version) (hv : 84 ≤ v.num) : IntField.OK (.record .Creatable) v ⟨"charge_projectile_unit", 4, true, fun (x : Genie.Creatable) => x.charge_projectile_unit, fun x y => { x with charge_projectile_unit := y }⟩ where
  self _ := rfl
  get_set _ _ := rfl
  fits x hx := by
    obtain ⟨hk, hx⟩ : ∃ hk, Creatable.WFWith v hk x := hx
    exact fits_i32.2 (hx.charge_projectile_unit.of_ge' hv)
  wf x hx y hy := by
    obtain ⟨hk, hx⟩ : ∃ hk, Creatable.WFWith v hk x := hx
    exact ⟨hk, { hx with charge_projectile_unit := Since.of_ge hv (fits_i32.1 hy) }⟩
  splits x hx := by
    obtain ⟨hk, hx⟩ : ∃ hk, Creatable.WFWith v hk x := hx
    refine ⟨fun i => .packed .l (.int i), .l, ?_⟩
    show Splits _ (fun y => Creatable.layout v { x with charge_projectile_unit := y }) _
    obtain ⟨a0, a1, a2, ha⟩ := Exactly.three hx.projectile_spawning_area
    by_cases h88 : 88 ≤ v.num
    · refine Splits.congr ?_ (fun y _ => Creatable.layout_flat88 v { x with charge_projectile_unit := y } a0 a1 a2 ha h88)
      dsimp only
      walk Splits.here
    · obtain ⟨t, ht, -⟩ := hx.train_locations.of_lt' h88
      refine Splits.congr ?_ (fun y _ => Creatable.layout_flat84 v { x with charge_projectile_unit := y } a0 a1 a2 ha h88 hv t ht)
      dsimp only
      walk Splits.here

theorem Creatable.intField_attack_priority (v : Version) (hv : 84 ≤ v.num) : IntField.OK (.record .Creatable) v ⟨"attack_priority", 1, true, fun (x : Genie.Creatable) => x.attack_priority, fun x y => { x with attack_priority := y }⟩ where
  self _ := rfl
  get_set _ _ := rfl
  fits x hx := by
    obtain ⟨hk, hx⟩ : ∃ hk, Creatable.WFWith v hk x := hx
    exact fits_i8.2 (hx.attack_priority.of_ge' hv)
  wf x hx y hy := by
    obtain ⟨hk, hx⟩ : ∃ hk, Creatable.WFWith v hk x := hx
    exact ⟨hk, { hx with attack_priority := Since.of_ge hv (fits_i8.1 hy) }⟩
  splits x hx := by
    obtain ⟨hk, hx⟩ : ∃ hk, Creatable.WFWith v hk x := hx
    refine ⟨fun i => .packed .b (.int i), .b, ?_⟩
    show Splits _ (fun y => Creatable.layout v { x with attack_priority := y }) _
    obtain ⟨a0, a1, a2, ha⟩ := Exactly.three hx.projectile_spawning_area
    by_cases h88 : 88 ≤ v.num
    · refine Splits.congr ?_ (fun y _ => Creatable.layout_flat88 v { x with attack_priority := y } a0 a1 a2 ha h88)
      dsimp only
      walk Splits.here
    · obtain ⟨t, ht, -⟩ := hx.train_locations.of_lt' h88
      refine Splits.congr ?_ (fun y _ => Creatable.layout_flat84 v { x with attack_priority := y } a0 a1 a2 ha h88 hv t ht)
      dsimp only
      walk Splits.here

theorem Creatable.intField_button_icon_id (v : Version) (hv : 84 ≤ v.num) : IntField.OK (.record .Creatable) v ⟨"button_icon_id", 2, true, fun (x : Genie.Creatable) => x.button_icon_id, fun x y => { x with button_icon_id := y }⟩ where
  self _ := rfl
  get_set _ _ := rfl
  fits x hx := by
    obtain ⟨hk, hx⟩ : ∃ hk, Creatable.WFWith v hk x := hx
    exact fits_i16.2 (hx.button_icon_id.of_ge' hv)
  wf x hx y hy := by
    obtain ⟨hk, hx⟩ : ∃ hk, Creatable.WFWith v hk x := hx
    exact ⟨hk, { hx with button_icon_id := Since.of_ge hv (fits_i16.1 hy) }⟩
  splits x hx := by
    obtain ⟨hk, hx⟩ : ∃ hk, Creatable.WFWith v hk x := hx
    refine ⟨fun i => .packed .h (.int i), .h, ?_⟩
    show Splits _ (fun y => Creatable.layout v { x with button_icon_id := y }) _
    obtain ⟨a0, a1, a2, ha⟩ := Exactly.three hx.projectile_spawning_area
    by_cases h88 : 88 ≤ v.num
    · refine Splits.congr ?_ (fun y _ => Creatable.layout_flat88 v { x with button_icon_id := y } a0 a1 a2 ha h88)
      dsimp only
      walk Splits.here
    · obtain ⟨t, ht, -⟩ := hx.train_locations.of_lt' h88
      refine Splits.congr ?_ (fun y _ => Creatable.layout_flat84 v { x with button_icon_id := y } a0 a1 a2 ha h88 hv t ht)
      dsimp only
      walk Splits.here

theorem Creatable.intField_button_short_tooltip_id (v : Version) (hv : 84 ≤ v.num) : IntField.OK (.record .Creatable) v ⟨"button_short_tooltip_id", 4, true, fun (x : Genie.Creatable) => x.button_short_tooltip_id, fun x y => { x with button_short_tooltip_id := y }⟩ where
  self _ := rfl
  get_set _ _ := rfl
  fits x hx := by
    obtain ⟨hk, hx⟩ : ∃ hk, Creatable.WFWith v hk x := hx
    exact fits_i32.2 (hx.button_short_tooltip_id.of_ge' hv)
  wf x hx y hy := by
    obtain ⟨hk, hx⟩ : ∃ hk, Creatable.WFWith v hk x := hx
    exact ⟨hk, { hx with button_short_tooltip_id := Since.of_ge hv (fits_i32.1 hy) }⟩
  splits x hx := by
    obtain ⟨hk, hx⟩ : ∃ hk, Creatable.WFWith v hk x := hx
    refine ⟨fun i => .packed .l (.int i), .l, ?_⟩
    show Splits _ (fun y => Creatable.layout v { x with button_short_tooltip_id := y }) _
    obtain ⟨a0, a1, a2, ha⟩ := Exactly.three hx.projectile_spawning_area
    by_cases h88 : 88 ≤ v.num
    · refine Splits.congr ?_ (fun y _ => Creatable.layout_flat88 v { x with button_short_tooltip_id := y } a0 a1 a2 ha h88)
      dsimp only
      walk Splits.here
    · obtain ⟨t, ht, -⟩ := hx.train_locations.of_lt' h88
      refine Splits.congr ?_ (fun y _ => Creatable.layout_flat84 v { x with button_short_tooltip_id := y } a0 a1 a2 ha h88 hv t ht)
      dsimp only
      walk Splits.here

theorem Creatable.intField_button_extended_tooltip_id (v : Version) (hv : 84 ≤ v.num) : IntField.OK (.record .Creatable) v ⟨"button_extended_tooltip_id", 4, true, fun (x : Genie.Creatable) => x.button_extended_tooltip_id, fun x y => { x with button_extended_tooltip_id := y }⟩ where
  self _ := rfl
  get_set _ _ := rfl
  fits x hx := by
    obtain ⟨hk, hx⟩ : ∃ hk, Creatable.WFWith v hk x := hx
    exact fits_i32.2 (hx.button_extended_tooltip_id.of_ge' hv)
  wf x hx y hy := by
    obtain ⟨hk, hx⟩ : ∃ hk, Creatable.WFWith v hk x := hx
    exact ⟨hk, { hx with button_extended_tooltip_id := Since.of_ge hv (fits_i32.1 hy) }⟩
  splits x hx := by
    obtain ⟨hk, hx⟩ : ∃ hk, Creatable.WFWith v hk x := hx
    refine ⟨fun i => .packed .l (.int i), .l, ?_⟩
    show Splits _ (fun y => Creatable.layout v { x with button_extended_tooltip_id := y }) _
    obtain ⟨a0, a1, a2, ha⟩ := Exactly.three hx.projectile_spawning_area
    by_cases h88 : 88 ≤ v.num
    · refine Splits.congr ?_ (fun y _ => Creatable.layout_flat88 v { x with button_extended_tooltip_id := y } a0 a1 a2 ha h88)
      dsimp only
      walk Splits.here
    · obtain ⟨t, ht, -⟩ := hx.train_locations.of_lt' h88
      refine Splits.congr ?_ (fun y _ => Creatable.layout_flat84 v { x with button_extended_tooltip_id := y } a0 a1 a2 ha h88 hv t ht)
      dsimp only
      walk Splits.here

theorem Creatable.intField_button_hotkey_action (v : Version) (hv : 84 ≤ v.num) : IntField.OK (.record .Creatable) v ⟨"button_hotkey_action", 2, true, fun (x : Genie.Creatable) => x.button_hotkey_action, fun x y => { x with button_hotkey_action := y }⟩ where
  self _ := rfl
  get_set _ _ := rfl
  fits x hx := by
    obtain ⟨hk, hx⟩ : ∃ hk, Creatable.WFWith v hk x := hx
    exact fits_i16.2 (hx.button_hotkey_action.of_ge' hv)
  wf x hx y hy := by
    obtain ⟨hk, hx⟩ : ∃ hk, Creatable.WFWith v hk x := hx
    exact ⟨hk, { hx with button_hotkey_action := Since.of_ge hv (fits_i16.1 hy) }⟩
  splits x hx := by
    obtain ⟨hk, hx⟩ : ∃ hk, Creatable.WFWith v hk x := hx
    refine ⟨fun i => .packed .h (.int i), .h, ?_⟩
    show Splits _ (fun y => Creatable.layout v { x with button_hotkey_action := y }) _
    obtain ⟨a0, a1, a2, ha⟩ := Exactly.three hx.projectile_spawning_area
    by_cases h88 : 88 ≤ v.num
    · refine Splits.congr ?_ (fun y _ => Creatable.layout_flat88 v { x with button_hotkey_action := y } a0 a1 a2 ha h88)
      dsimp only
      walk Splits.here
    · obtain ⟨t, ht, -⟩ := hx.train_locations.of_lt' h88
      refine Splits.congr ?_ (fun y _ => Creatable.layout_flat84 v { x with button_hotkey_action := y } a0 a1 a2 ha h88 hv t ht)
      dsimp only
      walk Splits.here

theorem Creatable.intField_max_total_projectiles (v : Version) : IntField.OK (.record .Creatable) v ⟨"max_total_projectiles", 1, true, fun (x : Genie.Creatable) => x.max_total_projectiles, fun x y => { x with max_total_projectiles := y }⟩ where
  self _ := rfl
  get_set _ _ := rfl
  fits x hx := by
    obtain ⟨hk, hx⟩ : ∃ hk, Creatable.WFWith v hk x := hx
    exact fits_i8.2 hx.max_total_projectiles
  wf x hx y hy := by
    obtain ⟨hk, hx⟩ : ∃ hk, Creatable.WFWith v hk x := hx
    exact ⟨hk, { hx with max_total_projectiles := fits_i8.1 hy }⟩
  splits x hx := by
    obtain ⟨hk, hx⟩ : ∃ hk, Creatable.WFWith v hk x := hx
    refine ⟨fun i => .packed .b (.int i), .b, ?_⟩
    show Splits _ (fun y => Creatable.layout v { x with max_total_projectiles := y }) _
    obtain ⟨a0, a1, a2, ha⟩ := Exactly.three hx.projectile_spawning_area
    by_cases h88 : 88 ≤ v.num
    · refine Splits.congr ?_ (fun y _ => Creatable.layout_flat88 v { x with max_total_projectiles := y } a0 a1 a2 ha h88)
      dsimp only
      walk Splits.here
    · obtain ⟨t, ht, -⟩ := hx.train_locations.of_lt' h88
      by_cases h84 : 84 ≤ v.num
      · refine Splits.congr ?_ (fun y _ => Creatable.layout_flat84 v { x with max_total_projectiles := y } a0 a1 a2 ha h88 h84 t ht)
        dsimp only
        walk Splits.here
      · refine Splits.congr ?_ (fun y _ => Creatable.layout_flat77 v { x with max_total_projectiles := y } a0 a1 a2 ha h88 h84 t ht)
        dsimp only
        walk Splits.here

theorem Creatable.intField_secondary_projectile_unit (v : Version) : IntField.OK (.record .Creatable) v ⟨"secondary_projectile_unit", 4, true, fun (x : Genie.Creatable) => x.secondary_projectile_unit, fun x y => { x with secondary_projectile_unit := y }⟩ where
  self _ := rfl
  get_set _ _ := rfl
  fits x hx := by
    obtain ⟨hk, hx⟩ : ∃ hk, Creatable.WFWith v hk x := hx
    exact fits_i32.2 hx.secondary_projectile_unit
  wf x hx y hy := by
    obtain ⟨hk, hx⟩ : ∃ hk, Creatable.WFWith v hk x := hx
    exact ⟨hk, { hx with secondary_projectile_unit := fits_i32.1 hy }⟩
  splits x hx := by
    obtain ⟨hk, hx⟩ : ∃ hk, Creatable.WFWith v hk x := hx
    refine ⟨fun i => .packed .l (.int i), .l, ?_⟩
    show Splits _ (fun y => Creatable.layout v { x with secondary_projectile_unit := y }) _
    obtain ⟨a0, a1, a2, ha⟩ := Exactly.three hx.projectile_spawning_area
    by_cases h88 : 88 ≤ v.num
    · refine Splits.congr ?_ (fun y _ => Creatable.layout_flat88 v { x with secondary_projectile_unit := y } a0 a1 a2 ha h88)
      dsimp only
      walk Splits.here
    · obtain ⟨t, ht, -⟩ := hx.train_locations.of_lt' h88
      by_cases h84 : 84 ≤ v.num
      · refine Splits.congr ?_ (fun y _ => Creatable.layout_flat84 v { x with secondary_projectile_unit := y } a0 a1 a2 ha h88 h84 t ht)
        dsimp only
        walk Splits.here
      · refine Splits.congr ?_ (fun y _ => Creatable.layout_flat77 v { x with secondary_projectile_unit := y } a0 a1 a2 ha h88 h84 t ht)
        dsimp only
        walk Splits.here

theorem Creatable.intField_special_graphic (v : Version) : IntField.OK (.record .Creatable) v ⟨"special_graphic", 4, true, fun (x : Genie.Creatable) => x.special_graphic, fun x y => { x with special_graphic := y }⟩ where
  self _ := rfl
  get_set _ _ := rfl
  fits x hx := by
    obtain ⟨hk, hx⟩ : ∃ hk, Creatable.WFWith v hk x := hx
    exact fits_i32.2 hx.special_graphic
  wf x hx y hy := by
    obtain ⟨hk, hx⟩ : ∃ hk, Creatable.WFWith v hk x := hx
    exact ⟨hk, { hx with special_graphic := fits_i32.1 hy }⟩
  splits x hx := by
    obtain ⟨hk, hx⟩ : ∃ hk, Creatable.WFWith v hk x := hx
    refine ⟨fun i => .packed .l (.int i), .l, ?_⟩
    show Splits _ (fun y => Creatable.layout v { x with special_graphic := y }) _
    obtain ⟨a0, a1, a2, ha⟩ := Exactly.three hx.projectile_spawning_area
    by_cases h88 : 88 ≤ v.num
    · refine Splits.congr ?_ (fun y _ => Creatable.layout_flat88 v { x with special_graphic := y } a0 a1 a2 ha h88)
      dsimp only
      walk Splits.here
    · obtain ⟨t, ht, -⟩ := hx.train_locations.of_lt' h88
      by_cases h84 : 84 ≤ v.num
      · refine Splits.congr ?_ (fun y _ => Creatable.layout_flat84 v { x with special_graphic := y } a0 a1 a2 ha h88 h84 t ht)
        dsimp only
        walk Splits.here
      · refine Splits.congr ?_ (fun y _ => Creatable.layout_flat77 v { x with special_graphic := y } a0 a1 a2 ha h88 h84 t ht)
        dsimp only
        walk Splits.here

theorem Creatable.intField_special_ability (v : Version) : IntField.OK (.record .Creatable) v ⟨"special_ability", 1, true, fun (x : Genie.Creatable) => x.special_ability, fun x y => { x with special_ability := y }⟩ where
  self _ := rfl
  get_set _ _ := rfl
  fits x hx := by
    obtain ⟨hk, hx⟩ : ∃ hk, Creatable.WFWith v hk x := hx
    exact fits_i8.2 hx.special_ability
  wf x hx y hy := by
    obtain ⟨hk, hx⟩ : ∃ hk, Creatable.WFWith v hk x := hx
    exact ⟨hk, { hx with special_ability := fits_i8.1 hy }⟩
  splits x hx := by
    obtain ⟨hk, hx⟩ : ∃ hk, Creatable.WFWith v hk x := hx
    refine ⟨fun i => .packed .b (.int i), .b, ?_⟩
    show Splits _ (fun y => Creatable.layout v { x with special_ability := y }) _
    obtain ⟨a0, a1, a2, ha⟩ := Exactly.three hx.projectile_spawning_area
    by_cases h88 : 88 ≤ v.num
    · refine Splits.congr ?_ (fun y _ => Creatable.layout_flat88 v { x with special_ability := y } a0 a1 a2 ha h88)
      dsimp only
      walk Splits.here
    · obtain ⟨t, ht, -⟩ := hx.train_locations.of_lt' h88
      by_cases h84 : 84 ≤ v.num
      · refine Splits.congr ?_ (fun y _ => Creatable.layout_flat84 v { x with special_ability := y } a0 a1 a2 ha h88 h84 t ht)
        dsimp only
        walk Splits.here
      · refine Splits.congr ?_ (fun y _ => Creatable.layout_flat77 v { x with special_ability := y } a0 a1 a2 ha h88 h84 t ht)
        dsimp only
        walk Splits.here

theorem Creatable.intField_displayed_pierce_armour (v : Version) : IntField.OK (.record .Creatable) v ⟨"displayed_pierce_armour", 2, true, fun (x : Genie.Creatable) => x.displayed_pierce_armour, fun x y => { x with displayed_pierce_armour := y }⟩ where
  self _ := rfl
  get_set _ _ := rfl
  fits x hx := by
    obtain ⟨hk, hx⟩ : ∃ hk, Creatable.WFWith v hk x := hx
    exact fits_i16.2 hx.displayed_pierce_armour
  wf x hx y hy := by
    obtain ⟨hk, hx⟩ : ∃ hk, Creatable.WFWith v hk x := hx
    exact ⟨hk, { hx with displayed_pierce_armour := fits_i16.1 hy }⟩
  splits x hx := by
    obtain ⟨hk, hx⟩ : ∃ hk, Creatable.WFWith v hk x := hx
    refine ⟨fun i => .packed .h (.int i), .h, ?_⟩
    show Splits _ (fun y => Creatable.layout v { x with displayed_pierce_armour := y }) _
    obtain ⟨a0, a1, a2, ha⟩ := Exactly.three hx.projectile_spawning_area
    by_cases h88 : 88 ≤ v.num
    · refine Splits.congr ?_ (fun y _ => Creatable.layout_flat88 v { x with displayed_pierce_armour := y } a0 a1 a2 ha h88)
      dsimp only
      walk Splits.here
    · obtain ⟨t, ht, -⟩ := hx.train_locations.of_lt' h88
      by_cases h84 : 84 ≤ v.num
      · refine Splits.congr ?_ (fun y _ => Creatable.layout_flat84 v { x with displayed_pierce_armour := y } a0 a1 a2 ha h88 h84 t ht)
        dsimp only
        walk Splits.here
      · refine Splits.congr ?_ (fun y _ => Creatable.layout_flat77 v { x with displayed_pierce_armour := y } a0 a1 a2 ha h88 h84 t ht)
        dsimp only
        walk Splits.here

theorem Creatable.intFields (v : Version) : ∀ f ∈ Node.intFields v (.record .Creatable), IntField.OK (.record .Creatable) v f :=
  forall_append (forall_cons (Creatable.intField_creatable_type v) (forall_cons (Creatable.intField_hero_mode v) (forall_cons (Creatable.intField_garrison_graphic v) (forall_cons (Creatable.intField_spawning_graphic v) (forall_cons (Creatable.intField_upgrade_graphic v) (forall_cons (Creatable.intField_hero_glow_graphic v) (forall_cons (Creatable.intField_charge_event v) (forall_cons (Creatable.intField_charge_type v) (forall_cons (Creatable.intField_max_total_projectiles v) (forall_cons (Creatable.intField_secondary_projectile_unit v) (forall_cons (Creatable.intField_special_graphic v) (forall_cons (Creatable.intField_special_ability v) (forall_cons (Creatable.intField_displayed_pierce_armour v) (forall_nil)))))))))))))) (forall_ite fun hv => forall_cons (Creatable.intField_idle_attack_graphic v hv) (forall_cons (Creatable.intField_charge_target v hv) (forall_cons (Creatable.intField_charge_projectile_unit v hv) (forall_cons (Creatable.intField_attack_priority v hv) (forall_cons (Creatable.intField_button_icon_id v hv) (forall_cons (Creatable.intField_button_short_tooltip_id v hv) (forall_cons (Creatable.intField_button_extended_tooltip_id v hv) (forall_cons (Creatable.intField_button_hotkey_action v hv) (forall_nil)))))))))

theorem BuildingAnnex.intField_unit_id (v : Version) : IntField.OK (.record .BuildingAnnex) v ⟨"unit_id", 2, true, fun (x : Genie.BuildingAnnex) => x.unit_id, fun x y => { x with unit_id := y }⟩ where
  self _ := rfl
  get_set _ _ := rfl
  fits x hx := by
    have hx : BuildingAnnex.WF v x := hx
    exact fits_i16.2 hx.unit_id
  wf x hx y hy := by
    have hx : BuildingAnnex.WF v x := hx
    exact { hx with unit_id := fits_i16.1 hy }
  splits x hx := by
    have hx : BuildingAnnex.WF v x := hx
    refine ⟨fun i => .packed .h (.int i), .h, ?_⟩
    show Splits _ (fun y => BuildingAnnex.layout v { x with unit_id := y }) _
    simp only [BuildingAnnex.layout_flat]
    walk Splits.here

theorem BuildingAnnex.intFields (v : Version) : ∀ f ∈ Node.intFields v (.record .BuildingAnnex), IntField.OK (.record .BuildingAnnex) v f :=
  forall_cons (BuildingAnnex.intField_unit_id v) (forall_nil)

theorem Building.intField_construction_graphic_id (v : Version) : IntField.OK (.record .Building) v ⟨"construction_graphic_id", 2, true, fun (x : Genie.Building) => x.construction_graphic_id, fun x y => { x with construction_graphic_id := y }⟩ where
  self _ := rfl
  get_set _ _ := rfl
  fits x hx := by
    have hx : Building.WF v x := hx
    exact fits_i16.2 hx.construction_graphic_id
  wf x hx y hy := by
    have hx : Building.WF v x := hx
    exact { hx with construction_graphic_id := fits_i16.1 hy }
  splits x hx := by
    have hx : Building.WF v x := hx
    refine ⟨fun i => .packed .h (.int i), .h, ?_⟩
    show Splits _ (fun y => Building.layout v { x with construction_graphic_id := y }) _
    obtain ⟨l0, l1, l2, l3, l4, l5, hl⟩ := Exactly.six hx.looting_table
    refine Splits.congr ?_ (fun y _ => Building.layout_flat v { x with construction_graphic_id := y } l0 l1 l2 l3 l4 l5 hl)
    dsimp only
    walk Splits.here

theorem Building.intField_snow_graphic_id (v : Version) : IntField.OK (.record .Building) v ⟨"snow_graphic_id", 2, true, fun (x : Genie.Building) => x.snow_graphic_id, fun x y => { x with snow_graphic_id := y }⟩ where
  self _ := rfl
  get_set _ _ := rfl
  fits x hx := by
    have hx : Building.WF v x := hx
    exact fits_i16.2 hx.snow_graphic_id
  wf x hx y hy := by
    have hx : Building.WF v x := hx
    exact { hx with snow_graphic_id := fits_i16.1 hy }
  splits x hx := by
    have hx : Building.WF v x := hx
    refine ⟨fun i => .packed .h (.int i), .h, ?_⟩
    show Splits _ (fun y => Building.layout v { x with snow_graphic_id := y }) _
    obtain ⟨l0, l1, l2, l3, l4, l5, hl⟩ := Exactly.six hx.looting_table
    refine Splits.congr ?_ (fun y _ => Building.layout_flat v { x with snow_graphic_id := y } l0 l1 l2 l3 l4 l5 hl)
    dsimp only
    walk Splits.here

theorem Building.intField_destruction_graphic_id (v : Version) : IntField.OK (.record .Building) v ⟨"destruction_graphic_id", 2, true, fun (x : Genie.Building) => x.destruction_graphic_id, fun x y => { x with destruction_graphic_id := y }⟩ where
  self _ := rfl
  get_set _ _ := rfl
  fits x hx := by
    have hx : Building.WF v x := hx
    exact fits_i16.2 hx.destruction_graphic_id
  wf x hx y hy := by
    have hx : Building.WF v x := hx
    exact { hx with destruction_graphic_id := fits_i16.1 hy }
  splits x hx := by
    have hx : Building.WF v x := hx
    refine ⟨fun i => .packed .h (.int i), .h, ?_⟩
    show Splits _ (fun y => Building.layout v { x with destruction_graphic_id := y }) _
    obtain ⟨l0, l1, l2, l3, l4, l5, hl⟩ := Exactly.six hx.looting_table
    refine Splits.congr ?_ (fun y _ => Building.layout_flat v { x with destruction_graphic_id := y } l0 l1 l2 l3 l4 l5 hl)
    dsimp only
    walk Splits.here

theorem Building.intField_destruction_rubble_graphic_id (v : Version) : IntField.OK (.record .Building) v ⟨"destruction_rubble_graphic_id", 2, true, fun (x : Genie.Building) => x.destruction_rubble_graphic_id, fun x y => { x with destruction_rubble_graphic_id := y }⟩ where
  self _ := rfl
  get_set _ _ := rfl
  fits x hx := by
    have hx : Building.WF v x := hx
    exact fits_i16.2 hx.destruction_rubble_graphic_id
  wf x hx y hy := by
    have hx : Building.WF v x := hx
    exact { hx with destruction_rubble_graphic_id := fits_i16.1 hy }
  splits x hx := by
    have hx : Building.WF v x := hx
    refine ⟨fun i => .packed .h (.int i), .h, ?_⟩
    show Splits _ (fun y => Building.layout v { x with destruction_rubble_graphic_id := y }) _
    obtain ⟨l0, l1, l2, l3, l4, l5, hl⟩ := Exactly.six hx.looting_table
    refine Splits.congr ?_ (fun y _ => Building.layout_flat v { x with destruction_rubble_graphic_id := y } l0 l1 l2 l3 l4 l5 hl)
    dsimp only
    walk Splits.here

theorem Building.intField_researching_graphic (v : Version) : IntField.OK (.record .Building) v ⟨"researching_graphic", 2, true, fun (x : Genie.Building) => x.researching_graphic, fun x y => { x with researching_graphic := y }⟩ where
  self _ := rfl
  get_set _ _ := rfl
  fits x hx := by
    have hx : Building.WF v x := hx
    exact fits_i16.2 hx.researching_graphic
  wf x hx y hy := by
    have hx : Building.WF v x := hx
    exact { hx with researching_graphic := fits_i16.1 hy }
  splits x hx := by
    have hx : Building.WF v x := hx
    refine ⟨fun i => .packed .h (.int i), .h, ?_⟩
    show Splits _ (fun y => Building.layout v { x with researching_graphic := y }) _
    obtain ⟨l0, l1, l2, l3, l4, l5, hl⟩ := Exactly.six hx.looting_table
    refine Splits.congr ?_ (fun y _ => Building.layout_flat v { x with researching_graphic := y } l0 l1 l2 l3 l4 l5 hl)
    dsimp only
    walk Splits.here

theorem Building.intField_research_completed_graphic (v : Version) : IntField.OK (.record .Building) v ⟨"research_completed_graphic", 2, true, fun (x : Genie.Building) => x.research_completed_graphic, fun x y => { x with research_completed_graphic := y }⟩ where
  self _ := rfl
  get_set _ _ := rfl
  fits x hx := by
    have hx : Building.WF v x := hx
    exact fits_i16.2 hx.research_completed_graphic
  wf x hx y hy := by
    have hx : Building.WF v x := hx
    exact { hx with research_completed_graphic := fits_i16.1 hy }
  splits x hx := by
    have hx : Building.WF v x := hx
    refine ⟨fun i => .packed .h (.int i), .h, ?_⟩
    show Splits _ (fun y => Building.layout v { x with research_completed_graphic := y }) _
    obtain ⟨l0, l1, l2, l3, l4, l5, hl⟩ := Exactly.six hx.looting_table
    refine Splits.congr ?_ (fun y _ => Building.layout_flat v { x with research_completed_graphic := y } l0 l1 l2 l3 l4 l5 hl)
    dsimp only
    walk Splits.here

theorem Building.intField_adjacent_mode (v : Version) : IntField.OK (.record .Building) v ⟨"adjacent_mode", 1, true, fun (x : Genie.Building) => x.adjacent_mode, fun x y => { x with adjacent_mode := y }⟩ where
  self _ := rfl
  get_set _ _ := rfl
  fits x hx := by
    have hx : Building.WF v x := hx
    exact fits_i8.2 hx.adjacent_mode
  wf x hx y hy := by
    have hx : Building.WF v x := hx
    exact { hx with adjacent_mode := fits_i8.1 hy }
  splits x hx := by
    have hx : Building.WF v x := hx
    refine ⟨fun i => .packed .b (.int i), .b, ?_⟩
    show Splits _ (fun y => Building.layout v { x with adjacent_mode := y }) _
    obtain ⟨l0, l1, l2, l3, l4, l5, hl⟩ := Exactly.six hx.looting_table
    refine Splits.congr ?_ (fun y _ => Building.layout_flat v { x with adjacent_mode := y } l0 l1 l2 l3 l4 l5 hl)
    dsimp only
    walk Splits.here

theorem Building.intField_graphics_angle (v : Version) : IntField.OK (.record .Building) v ⟨"graphics_angle", 2, true, fun (x : Genie.Building) => x.graphics_angle, fun x y => { x with graphics_angle := y }⟩ where
  self _ := rfl
  get_set _ _ := rfl
  fits x hx := by
    have hx : Building.WF v x := hx
    exact fits_i16.2 hx.graphics_angle
  wf x hx y hy := by
    have hx : Building.WF v x := hx
    exact { hx with graphics_angle := fits_i16.1 hy }
  splits x hx := by
    have hx : Building.WF v x := hx
    refine ⟨fun i => .packed .h (.int i), .h, ?_⟩
    show Splits _ (fun y => Building.layout v { x with graphics_angle := y }) _
    obtain ⟨l0, l1, l2, l3, l4, l5, hl⟩ := Exactly.six hx.looting_table
    refine Splits.congr ?_ (fun y _ => Building.layout_flat v { x with graphics_angle := y } l0 l1 l2 l3 l4 l5 hl)
    dsimp only
    walk Splits.here

theorem Building.intField_disappears_when_built (v : Version) : IntField.OK (.record .Building) v ⟨"disappears_when_built", 1, true, fun (x : Genie.Building) => x.disappears_when_built, fun x y => { x with disappears_when_built := y }⟩ where
  self _ := rfl
  get_set _ _ := rfl
  fits x hx := by
    have hx : Building.WF v x := hx
    exact fits_i8.2 hx.disappears_when_built
  wf x hx y hy := by
    have hx : Building.WF v x := hx
    exact { hx with disappears_when_built := fits_i8.1 hy }
  splits x hx := by
    have hx : Building.WF v x := hx
    refine ⟨fun i => .packed .b (.int i), .b, ?_⟩
    show Splits _ (fun y => Building.layout v { x with disappears_when_built := y }) _
    obtain ⟨l0, l1, l2, l3, l4, l5, hl⟩ := Exactly.six hx.looting_table
    refine Splits.congr ?_ (fun y _ => Building.layout_flat v { x with disappears_when_built := y } l0 l1 l2 l3 l4 l5 hl)
    dsimp only
    walk Splits.here

theorem Building.intField_stack_unit_id (v : Version) : IntField.OK (.record .Building) v ⟨"stack_unit_id", 2, true, fun (x : Genie.Building) => x.stack_unit_id, fun x y => { x with stack_unit_id := y }⟩ where
  self _ := rfl
  get_set _ _ := rfl
  fits x hx := by
    have hx : Building.WF v x := hx
    exact fits_i16.2 hx.stack_unit_id
  wf x hx y hy := by
    have hx : Building.WF v x := hx
    exact { hx with stack_unit_id := fits_i16.1 hy }
  splits x hx := by
    have hx : Building.WF v x := hx
    refine ⟨fun i => .packed .h (.int i), .h, ?_⟩
    show Splits _ (fun y => Building.layout v { x with stack_unit_id := y }) _
    obtain ⟨l0, l1, l2, l3, l4, l5, hl⟩ := Exactly.six hx.looting_table
    refine Splits.congr ?_ (fun y _ => Building.layout_flat v { x with stack_unit_id := y } l0 l1 l2 l3 l4 l5 hl)
    dsimp only
    walk Splits.here

theorem Building.intField_foundation_terrain_id (v : Version) : IntField.OK (.record .Building) v ⟨"foundation_terrain_id", 2, true, fun (x : Genie.Building) => x.foundation_terrain_id, fun x y => { x with foundation_terrain_id := y }⟩ where
  self _ := rfl
  get_set _ _ := rfl
  fits x hx := by
    have hx : Building.WF v x := hx
    exact fits_i16.2 hx.foundation_terrain_id
  wf x hx y hy := by
    have hx : Building.WF v x := hx
    exact { hx with foundation_terrain_id := fits_i16.1 hy }
  splits x hx := by
    have hx : Building.WF v x := hx
    refine ⟨fun i => .packed .h (.int i), .h, ?_⟩
    show Splits _ (fun y => Building.layout v { x with foundation_terrain_id := y }) _
    obtain ⟨l0, l1, l2, l3, l4, l5, hl⟩ := Exactly.six hx.looting_table
    refine Splits.congr ?_ (fun y _ => Building.layout_flat v { x with foundation_terrain_id := y } l0 l1 l2 l3 l4 l5 hl)
    dsimp only
    walk Splits.here

theorem Building.intField_old_overlap_id (v : Version) : IntField.OK (.record .Building) v ⟨"old_overlap_id", 2, true, fun (x : Genie.Building) => x.old_overlap_id, fun x y => { x with old_overlap_id := y }⟩ where
  self _ := rfl
  get_set _ _ := rfl
  fits x hx := by
    have hx : Building.WF v x := hx
    exact fits_i16.2 hx.old_overlap_id
  wf x hx y hy := by
    have hx : Building.WF v x := hx
    exact { hx with old_overlap_id := fits_i16.1 hy }
  splits x hx := by
    have hx : Building.WF v x := hx
    refine ⟨fun i => .packed .h (.int i), .h, ?_⟩
    show Splits _ (fun y => Building.layout v { x with old_overlap_id := y }) _
    obtain ⟨l0, l1, l2, l3, l4, l5, hl⟩ := Exactly.six hx.looting_table
    refine Splits.congr ?_ (fun y _ => Building.layout_flat v { x with old_overlap_id := y } l0 l1 l2 l3 l4 l5 hl)
    dsimp only
    walk Splits.here

theorem Building.intField_tech_id (v : Version) : IntField.OK (.record .Building) v ⟨"tech_id", 2, true, fun (x : Genie.Building) => x.tech_id, fun x y => { x with tech_id := y }⟩ where
  self _ := rfl
  get_set _ _ := rfl
  fits x hx := by
    have hx : Building.WF v x := hx
    exact fits_i16.2 hx.tech_id
  wf x hx y hy := by
    have hx : Building.WF v x := hx
    exact { hx with tech_id := fits_i16.1 hy }
  splits x hx := by
    have hx : Building.WF v x := hx
    refine ⟨fun i => .packed .h (.int i), .h, ?_⟩
    show Splits _ (fun y => Building.layout v { x with tech_id := y }) _
    obtain ⟨l0, l1, l2, l3, l4, l5, hl⟩ := Exactly.six hx.looting_table
    refine Splits.congr ?_ (fun y _ => Building.layout_flat v { x with tech_id := y } l0 l1 l2 l3 l4 l5 hl)
    dsimp only
    walk Splits.here

theorem Building.intField_can_burn (v : Version) : IntField.OK (.record .Building) v ⟨"can_burn", 1, true, fun (x : Genie.Building) => x.can_burn, fun x y => { x with can_burn := y }⟩ where
  self _ := rfl
  get_set _ _ := rfl
  fits x hx := by
    have hx : Building.WF v x := hx
    exact fits_i8.2 hx.can_burn
  wf x hx y hy := by
    have hx : Building.WF v x := hx
    exact { hx with can_burn := fits_i8.1 hy }
  splits x hx := by
    have hx : Building.WF v x := hx
    refine ⟨fun i => .packed .b (.int i), .b, ?_⟩
    show Splits _ (fun y => Building.layout v { x with can_burn := y }) _
    obtain ⟨l0, l1, l2, l3, l4, l5, hl⟩ := Exactly.six hx.looting_table
    refine Splits.congr ?_ (fun y _ => Building.layout_flat v { x with can_burn := y } l0 l1 l2 l3 l4 l5 hl)
    dsimp only
    walk Splits.here

theorem Building.intField_head_unit (v : Version) : IntField.OK (.record .Building) v ⟨"head_unit", 2, true, fun (x : Genie.Building) => x.head_unit, fun x y => { x with head_unit := y }⟩ where
  self _ := rfl
  get_set _ _ := rfl
  fits x hx := by
    have hx : Building.WF v x := hx
    exact fits_i16.2 hx.head_unit
  wf x hx y hy := by
    have hx : Building.WF v x := hx
    exact { hx with head_unit := fits_i16.1 hy }
  splits x hx := by
    have hx : Building.WF v x := hx
    refine ⟨fun i => .packed .h (.int i), .h, ?_⟩
    show Splits _ (fun y => Building.layout v { x with head_unit := y }) _
    obtain ⟨l0, l1, l2, l3, l4, l5, hl⟩ := Exactly.six hx.looting_table
    refine Splits.congr ?_ (fun y _ => Building.layout_flat v { x with head_unit := y } l0 l1 l2 l3 l4 l5 hl)
    dsimp only
    walk Splits.here

theorem Building.intField_transform_unit (v : Version) : IntField.OK (.record .Building) v ⟨"transform_unit", 2, true, fun (x : Genie.Building) => x.transform_unit, fun x y => { x with transform_unit := y }⟩ where
  self _ := rfl
  get_set _ _ := rfl
  fits x hx := by
    have hx : Building.WF v x := hx
    exact fits_i16.2 hx.transform_unit
  wf x hx y hy := by
    have hx : Building.WF v x := hx
    exact { hx with transform_unit := fits_i16.1 hy }
  splits x hx := by
    have hx : Building.WF v x := hx
    refine ⟨fun i => .packed .h (.int i), .h, ?_⟩
    show Splits _ (fun y => Building.layout v { x with transform_unit := y }) _
    obtain ⟨l0, l1, l2, l3, l4, l5, hl⟩ := Exactly.six hx.looting_table
    refine Splits.congr ?_ (fun y _ => Building.layout_flat v { x with transform_unit := y } l0 l1 l2 l3 l4 l5 hl)
    dsimp only
    walk Splits.here

theorem Building.intField_transform_sound (v : Version) : IntField.OK (.record .Building) v ⟨"transform_sound", 2, true, fun (x : Genie.Building) => x.transform_sound, fun x y => { x with transform_sound := y }⟩ where
  self _ := rfl
  get_set _ _ := rfl
  fits x hx := by
    have hx : Building.WF v x := hx
    exact fits_i16.2 hx.transform_sound
  wf x hx y hy := by
    have hx : Building.WF v x := hx
    exact { hx with transform_sound := fits_i16.1 hy }
  splits x hx := by
    have hx : Building.WF v x := hx
    refine ⟨fun i => .packed .h (.int i), .h, ?_⟩
    show Splits _ (fun y => Building.layout v { x with transform_sound := y }) _
    obtain ⟨l0, l1, l2, l3, l4, l5, hl⟩ := Exactly.six hx.looting_table
    refine Splits.congr ?_ (fun y _ => Building.layout_flat v { x with transform_sound := y } l0 l1 l2 l3 l4 l5 hl)
    dsimp only
    walk Splits.here

theorem Building.intField_construction_sound (v : Version) : IntField.OK (.record .Building) v ⟨"construction_sound", 2, true, fun (x : Genie.Building) => x.construction_sound, fun x y => { x with construction_sound := y }⟩ where
  self _ := rfl
  get_set _ _ := rfl
  fits x hx := by
    have hx : Building.WF v x := hx
    exact fits_i16.2 hx.construction_sound
  wf x hx y hy := by
    have hx : Building.WF v x := hx
    exact { hx with construction_sound := fits_i16.1 hy }
  splits x hx := by
    have hx : Building.WF v x := hx
    refine ⟨fun i => .packed .h (.int i), .h, ?_⟩
    show Splits _ (fun y => Building.layout v { x with construction_sound := y }) _
    obtain ⟨l0, l1, l2, l3, l4, l5, hl⟩ := Exactly.six hx.looting_table
    refine Splits.congr ?_ (fun y _ => Building.layout_flat v { x with construction_sound := y } l0 l1 l2 l3 l4 l5 hl)
    dsimp only
    walk Splits.here

theorem Building.intField_wwise_transform_sound_id (v : Version) : IntField.OK (.record .Building) v ⟨"wwise_transform_sound_id", 4, true, fun (x : Genie.Building) => x.wwise_transform_sound_id, fun x y => { x with wwise_transform_sound_id := y }⟩ where
  self _ := rfl
  get_set _ _ := rfl
  fits x hx := by
    have hx : Building.WF v x := hx
    exact fits_i32.2 hx.wwise_transform_sound_id
  wf x hx y hy := by
    have hx : Building.WF v x := hx
    exact { hx with wwise_transform_sound_id := fits_i32.1 hy }
  splits x hx := by
    have hx : Building.WF v x := hx
    refine ⟨fun i => .packed .l (.int i), .l, ?_⟩
    show Splits _ (fun y => Building.layout v { x with wwise_transform_sound_id := y }) _
    obtain ⟨l0, l1, l2, l3, l4, l5, hl⟩ := Exactly.six hx.looting_table
    refine Splits.congr ?_ (fun y _ => Building.layout_flat v { x with wwise_transform_sound_id := y } l0 l1 l2 l3 l4 l5 hl)
    dsimp only
    walk Splits.here

theorem Building.intField_wwise_construction_sound_id (v : Version) : IntField.OK (.record .Building) v ⟨"wwise_construction_sound_id", 4, true, fun (x : Genie.Building) => x.wwise_construction_sound_id, fun x y => { x with wwise_construction_sound_id := y }⟩ where
  self _ := rfl
  get_set _ _ := rfl
  fits x hx := by
    have hx : Building.WF v x := hx
    exact fits_i32.2 hx.wwise_construction_sound_id
  wf x hx y hy := by
    have hx : Building.WF v x := hx
    exact { hx with wwise_construction_sound_id := fits_i32.1 hy }
  splits x hx := by
    have hx : Building.WF v x := hx
    refine ⟨fun i => .packed .l (.int i), .l, ?_⟩
    show Splits _ (fun y => Building.layout v { x with wwise_construction_sound_id := y }) _
    obtain ⟨l0, l1, l2, l3, l4, l5, hl⟩ := Exactly.six hx.looting_table
    refine Splits.congr ?_ (fun y _ => Building.layout_flat v { x with wwise_construction_sound_id := y } l0 l1 l2 l3 l4 l5 hl)
    dsimp only
    walk Splits.here

theorem Building.intField_garrison_type (v : Version) : IntField.OK (.record .Building) v ⟨"garrison_type", 1, true, fun (x : Genie.Building) => x.garrison_type, fun x y => { x with garrison_type := y }⟩ where
  self _ := rfl
  get_set _ _ := rfl
  fits x hx := by
    have hx : Building.WF v x := hx
    exact fits_i8.2 hx.garrison_type
  wf x hx y hy := by
    have hx : Building.WF v x := hx
    exact { hx with garrison_type := fits_i8.1 hy }
  splits x hx := by
    have hx : Building.WF v x := hx
    refine ⟨fun i => .packed .b (.int i), .b, ?_⟩
    show Splits _ (fun y => Building.layout v { x with garrison_type := y }) _
    obtain ⟨l0, l1, l2, l3, l4, l5, hl⟩ := Exactly.six hx.looting_table
    refine Splits.congr ?_ (fun y _ => Building.layout_flat v { x with garrison_type := y } l0 l1 l2 l3 l4 l5 hl)
    dsimp only
    walk Splits.here

theorem Building.intField_pile_unit (v : Version) : IntField.OK (.record .Building) v ⟨"pile_unit", 2, true, fun (x : Genie.Building) => x.pile_unit, fun x y => { x with pile_unit := y }⟩ where
  self _ := rfl
  get_set _ _ := rfl
  fits x hx := by
    have hx : Building.WF v x := hx
    exact fits_i16.2 hx.pile_unit
  wf x hx y hy := by
    have hx : Building.WF v x := hx
    exact { hx with pile_unit := fits_i16.1 hy }
  splits x hx := by
    have hx : Building.WF v x := hx
    refine ⟨fun i => .packed .h (.int i), .h, ?_⟩
    show Splits _ (fun y => Building.layout v { x with pile_unit := y }) _
    obtain ⟨l0, l1, l2, l3, l4, l5, hl⟩ := Exactly.six hx.looting_table
    refine Splits.congr ?_ (fun y _ => Building.layout_flat v { x with pile_unit := y } l0 l1 l2 l3 l4 l5 hl)
    dsimp only
    walk Splits.here

theorem Building.intFields (v : Version) : ∀ f ∈ Node.intFields v (.record .Building), IntField.OK (.record .Building) v f :=
  forall_cons (Building.intField_construction_graphic_id v) (forall_cons (Building.intField_snow_graphic_id v) (forall_cons (Building.intField_destruction_graphic_id v) (forall_cons (Building.intField_destruction_rubble_graphic_id v) (forall_cons (Building.intField_researching_graphic v) (forall_cons (Building.intField_research_completed_graphic v) (forall_cons (Building.intField_adjacent_mode v) (forall_cons (Building.intField_graphics_angle v) (forall_cons (Building.intField_disappears_when_built v) (forall_cons (Building.intField_stack_unit_id v) (forall_cons (Building.intField_foundation_terrain_id v) (forall_cons (Building.intField_old_overlap_id v) (forall_cons (Building.intField_tech_id v) (forall_cons (Building.intField_can_burn v) (forall_cons (Building.intField_head_unit v) (forall_cons (Building.intField_transform_unit v) (forall_cons (Building.intField_transform_sound v) (forall_cons (Building.intField_construction_sound v) (forall_cons (Building.intField_wwise_transform_sound_id v) (forall_cons (Building.intField_wwise_construction_sound_id v) (forall_cons (Building.intField_garrison_type v) (forall_cons (Building.intField_pile_unit v) (forall_nil))))))))))))))))))))))

theorem Unit.intField_id (v : Version) : IntField.OK (.record .Unit) v ⟨"id", 2, true, fun (x : Genie.Unit) => x.id, fun x y => { x with id := y }⟩ where
  self _ := rfl
  get_set _ _ := rfl
  fits x hx := by
    have hx : Unit.WF v x := hx
    exact fits_i16.2 hx.id
  wf x hx y hy := by
    have hx : Unit.WF v x := hx
    exact { hx with id := fits_i16.1 hy }
  splits x hx := by
    have hx : Unit.WF v x := hx
    refine ⟨fun i => .packed .h (.int i), .h, ?_⟩
    show Splits _ (fun y => Unit.layout v { x with id := y }) _
    obtain ⟨s0, s1, hs⟩ := Exactly.two hx.standing_graphic
    obtain ⟨p0, p1, hp⟩ := Exactly.two hx.placement_side_terrain
    obtain ⟨q0, q1, hq⟩ := Exactly.two hx.placement_terrain
    obtain ⟨c0, c1, hc⟩ := Exactly.two hx.clearance_size
    by_cases hv : 88 ≤ v.num
    · refine Splits.congr ?_ (fun y _ => Unit.layout_flat88 v { x with id := y } s0 s1 p0 p1 q0 q1 c0 c1 hs hp hq hc hv)
      dsimp only
      walk Splits.here
    · refine Splits.congr ?_ (fun y _ => Unit.layout_flat84 v { x with id := y } s0 s1 p0 p1 q0 q1 c0 c1 hs hp hq hc hv)
      dsimp only
      walk Splits.here

theorem Unit.intField_language_dll_name (v : Version) : IntField.OK (.record .Unit) v ⟨"language_dll_name", 4, true, fun (x : Genie.Unit) => x.language_dll_name, fun x y => { x with language_dll_name := y }⟩ where
  self _ := rfl
  get_set _ _ := rfl
  fits x hx := by
    have hx : Unit.WF v x := hx
    exact fits_i32.2 hx.language_dll_name
  wf x hx y hy := by
    have hx : Unit.WF v x := hx
    exact { hx with language_dll_name := fits_i32.1 hy }
  splits x hx := by
    have hx : Unit.WF v x := hx
    refine ⟨fun i => .packed .l (.int i), .l, ?_⟩
    show Splits _ (fun y => Unit.layout v { x with language_dll_name := y }) _
    obtain ⟨s0, s1, hs⟩ := Exactly.two hx.standing_graphic
    obtain ⟨p0, p1, hp⟩ := Exactly.two hx.placement_side_terrain
    obtain ⟨q0, q1, hq⟩ := Exactly.two hx.placement_terrain
    obtain ⟨c0, c1, hc⟩ := Exactly.two hx.clearance_size
    by_cases hv : 88 ≤ v.num
    · refine Splits.congr ?_ (fun y _ => Unit.layout_flat88 v { x with language_dll_name := y } s0 s1 p0 p1 q0 q1 c0 c1 hs hp hq hc hv)
      dsimp only
      walk Splits.here
    · refine Splits.congr ?_ (fun y _ => Unit.layout_flat84 v { x with language_dll_name := y } s0 s1 p0 p1 q0 q1 c0 c1 hs hp hq hc hv)
      dsimp only
      walk Splits.here

theorem Unit.intField_language_dll_creation (v : Version) : IntField.OK (.record .Unit) v ⟨"language_dll_creation", 4, true, fun (x : Genie.Unit) => x.language_dll_creation, fun x y => { x with language_dll_creation := y }⟩ where
  self _ := rfl
  get_set _ _ := rfl
  fits x hx := by
    have hx : Unit.WF v x := hx
    exact fits_i32.2 hx.language_dll_creation
  wf x hx y hy := by
    have hx : Unit.WF v x := hx
    exact { hx with language_dll_creation := fits_i32.1 hy }
  splits x hx := by
    have hx : Unit.WF v x := hx
    refine ⟨fun i => .packed .l (.int i), .l, ?_⟩
    show Splits _ (fun y => Unit.layout v { x with language_dll_creation := y }) _
    obtain ⟨s0, s1, hs⟩ := Exactly.two hx.standing_graphic
    obtain ⟨p0, p1, hp⟩ := Exactly.two hx.placement_side_terrain
    obtain ⟨q0, q1, hq⟩ := Exactly.two hx.placement_terrain
    obtain ⟨c0, c1, hc⟩ := Exactly.two hx.clearance_size
    by_cases hv : 88 ≤ v.num
    · refine Splits.congr ?_ (fun y _ => Unit.layout_flat88 v { x with language_dll_creation := y } s0 s1 p0 p1 q0 q1 c0 c1 hs hp hq hc hv)
      dsimp only
      walk Splits.here
    · refine Splits.congr ?_ (fun y _ => Unit.layout_flat84 v { x with language_dll_creation := y } s0 s1 p0 p1 q0 q1 c0 c1 hs hp hq hc hv)
      dsimp only
      walk Splits.here

theorem Unit.intField_class_ (v : Version) : IntField.OK (.record .Unit) v ⟨"class_", 2, true, fun (x : Genie.Unit) => x.class_, fun x y => { x with class_ := y }⟩ where
  self _ := rfl
  get_set _ _ := rfl
  fits x hx := by
    have hx : Unit.WF v x := hx
    exact fits_i16.2 hx.class_
  wf x hx y hy := by
    have hx : Unit.WF v x := hx
    exact { hx with class_ := fits_i16.1 hy }
  splits x hx := by
    have hx : Unit.WF v x := hx
    refine ⟨fun i => .packed .h (.int i), .h, ?_⟩
    show Splits _ (fun y => Unit.layout v { x with class_ := y }) _
    obtain ⟨s0, s1, hs⟩ := Exactly.two hx.standing_graphic
    obtain ⟨p0, p1, hp⟩ := Exactly.two hx.placement_side_terrain
    obtain ⟨q0, q1, hq⟩ := Exactly.two hx.placement_terrain
    obtain ⟨c0, c1, hc⟩ := Exactly.two hx.clearance_size
    by_cases hv : 88 ≤ v.num
    · refine Splits.congr ?_ (fun y _ => Unit.layout_flat88 v { x with class_ := y } s0 s1 p0 p1 q0 q1 c0 c1 hs hp hq hc hv)
      dsimp only
      walk Splits.here
    · refine Splits.congr ?_ (fun y _ => Unit.layout_flat84 v { x with class_ := y } s0 s1 p0 p1 q0 q1 c0 c1 hs hp hq hc hv)
      dsimp only
      walk Splits.here

theorem Unit.intField_dying_graphic (v : Version) : IntField.OK (.record .Unit) v ⟨"dying_graphic", 2, true, fun (x : Genie.Unit) => x.dying_graphic, fun x y => { x with dying_graphic := y }⟩ where
  self _ := rfl
  get_set _ _ := rfl
  fits x hx := by
    have hx : Unit.WF v x := hx
    exact fits_i16.2 hx.dying_graphic
  wf x hx y hy := by
    have hx : Unit.WF v x := hx
    exact { hx with dying_graphic := fits_i16.1 hy }
  splits x hx := by
    have hx : Unit.WF v x := hx
    refine ⟨fun i => .packed .h (.int i), .h, ?_⟩
    show Splits _ (fun y => Unit.layout v { x with dying_graphic := y }) _
    obtain ⟨s0, s1, hs⟩ := Exactly.two hx.standing_graphic
    obtain ⟨p0, p1, hp⟩ := Exactly.two hx.placement_side_terrain
    obtain ⟨q0, q1, hq⟩ := Exactly.two hx.placement_terrain
    obtain ⟨c0, c1, hc⟩ := Exactly.two hx.clearance_size
    by_cases hv : 88 ≤ v.num
    · refine Splits.congr ?_ (fun y _ => Unit.layout_flat88 v { x with dying_graphic := y } s0 s1 p0 p1 q0 q1 c0 c1 hs hp hq hc hv)
      dsimp only
      walk Splits.here
    · refine Splits.congr ?_ (fun y _ => Unit.layout_flat84 v { x with dying_graphic := y } s0 s1 p0 p1 q0 q1 c0 c1 hs hp hq hc hv)
      dsimp only
      walk Splits.here

theorem Unit.intField_undead_graphic (v : Version) : IntField.OK (.record .Unit) v ⟨"undead_graphic", 2, true, fun (x : Genie.Unit) => x.undead_graphic, fun x y => { x with undead_graphic := y }⟩ where
  self _ := rfl
  get_set _ _ := rfl
  fits x hx := by
    have hx : Unit.WF v x := hx
    exact fits_i16.2 hx.undead_graphic
  wf x hx y hy := by
    have hx : Unit.WF v x := hx
    exact { hx with undead_graphic := fits_i16.1 hy }
  splits x hx := by
    have hx : Unit.WF v x := hx
    refine ⟨fun i => .packed .h (.int i), .h, ?_⟩
    show Splits _ (fun y => Unit.layout v { x with undead_graphic := y }) _
    obtain ⟨s0, s1, hs⟩ := Exactly.two hx.standing_graphic
    obtain ⟨p0, p1, hp⟩ := Exactly.two hx.placement_side_terrain
    obtain ⟨q0, q1, hq⟩ := Exactly.two hx.placement_terrain
    obtain ⟨c0, c1, hc⟩ := Exactly.two hx.clearance_size
    by_cases hv : 88 ≤ v.num
    · refine Splits.congr ?_ (fun y _ => Unit.layout_flat88 v { x with undead_graphic := y } s0 s1 p0 p1 q0 q1 c0 c1 hs hp hq hc hv)
      dsimp only
      walk Splits.here
    · refine Splits.congr ?_ (fun y _ => Unit.layout_flat84 v { x with undead_graphic := y } s0 s1 p0 p1 q0 q1 c0 c1 hs hp hq hc hv)
      dsimp only
      walk Splits.here

theorem Unit.intField_undead_mode (v : Version) : IntField.OK (.record .Unit) v ⟨"undead_mode", 1, true, fun (x : Genie.Unit) => x.undead_mode, fun x y => { x with undead_mode := y }⟩ where
  self _ := rfl
  get_set _ _ := rfl
  fits x hx := by
    have hx : Unit.WF v x := hx
    exact fits_i8.2 hx.undead_mode
  wf x hx y hy := by
    have hx : Unit.WF v x := hx
    exact { hx with undead_mode := fits_i8.1 hy }
  splits x hx := by
    have hx : Unit.WF v x := hx
    refine ⟨fun i => .packed .b (.int i), .b, ?_⟩
    show Splits _ (fun y => Unit.layout v { x with undead_mode := y }) _
    obtain ⟨s0, s1, hs⟩ := Exactly.two hx.standing_graphic
    obtain ⟨p0, p1, hp⟩ := Exactly.two hx.placement_side_terrain
    obtain ⟨q0, q1, hq⟩ := Exactly.two hx.placement_terrain
    obtain ⟨c0, c1, hc⟩ := Exactly.two hx.clearance_size
    by_cases hv : 88 ≤ v.num
    · refine Splits.congr ?_ (fun y _ => Unit.layout_flat88 v { x with undead_mode := y } s0 s1 p0 p1 q0 q1 c0 c1 hs hp hq hc hv)
      dsimp only
      walk Splits.here
    · refine Splits.congr ?_ (fun y _ => Unit.layout_flat84 v { x with undead_mode := y } s0 s1 p0 p1 q0 q1 c0 c1 hs hp hq hc hv)
      dsimp only
      walk Splits.here

theorem Unit.intField_hit_points (v : Version) : IntField.OK (.record .Unit) v ⟨"hit_points", 2, true, fun (x : Genie.Unit) => x.hit_points, fun x y => { x with hit_points := y }⟩ where
  self _ := rfl
  get_set _ _ := rfl
  fits x hx := by
    have hx : Unit.WF v x := hx
    exact fits_i16.2 hx.hit_points
  wf x hx y hy := by
    have hx : Unit.WF v x := hx
    exact { hx with hit_points := fits_i16.1 hy }
  splits x hx := by
    have hx : Unit.WF v x := hx
    refine ⟨fun i => .packed .h (.int i), .h, ?_⟩
    show Splits _ (fun y => Unit.layout v { x with hit_points := y }) _
    obtain ⟨s0, s1, hs⟩ := Exactly.two hx.standing_graphic
    obtain ⟨p0, p1, hp⟩ := Exactly.two hx.placement_side_terrain
    obtain ⟨q0, q1, hq⟩ := Exactly.two hx.placement_terrain
    obtain ⟨c0, c1, hc⟩ := Exactly.two hx.clearance_size
    by_cases hv : 88 ≤ v.num
    · refine Splits.congr ?_ (fun y _ => Unit.layout_flat88 v { x with hit_points := y } s0 s1 p0 p1 q0 q1 c0 c1 hs hp hq hc hv)
      dsimp only
      walk Splits.here
    · refine Splits.congr ?_ (fun y _ => Unit.layout_flat84 v { x with hit_points := y } s0 s1 p0 p1 q0 q1 c0 c1 hs hp hq hc hv)
      dsimp only
      walk Splits.here

theorem Unit.intField_garrison_capacity (v : Version) : IntField.OK (.record .Unit) v ⟨"garrison_capacity", 1, true, fun (x : Genie.Unit) => x.garrison_capacity, fun x y => { x with garrison_capacity := y }⟩ where
  self _ := rfl
  get_set _ _ := rfl
  fits x hx := by
    have hx : Unit.WF v x := hx
    exact fits_i8.2 hx.garrison_capacity
  wf x hx y hy := by
    have hx : Unit.WF v x := hx
    exact { hx with garrison_capacity := fits_i8.1 hy }
  splits x hx := by
    have hx : Unit.WF v x := hx
    refine ⟨fun i => .packed .b (.int i), .b, ?_⟩
    show Splits _ (fun y => Unit.layout v { x with garrison_capacity := y }) _
    obtain ⟨s0, s1, hs⟩ := Exactly.two hx.standing_graphic
    obtain ⟨p0, p1, hp⟩ := Exactly.two hx.placement_side_terrain
    obtain ⟨q0, q1, hq⟩ := Exactly.two hx.placement_terrain
    obtain ⟨c0, c1, hc⟩ := Exactly.two hx.clearance_size
    by_cases hv : 88 ≤ v.num
    · refine Splits.congr ?_ (fun y _ => Unit.layout_flat88 v { x with garrison_capacity := y } s0 s1 p0 p1 q0 q1 c0 c1 hs hp hq hc hv)
      dsimp only
      walk Splits.here
    · refine Splits.congr ?_ (fun y _ => Unit.layout_flat84 v { x with garrison_capacity := y } s0 s1 p0 p1 q0 q1 c0 c1 hs hp hq hc hv)
      dsimp only
      walk Splits.here

theorem Unit.intField_train_sound (v : Version) : IntField.OK (.record .Unit) v ⟨"train_sound", 2, true, fun (x : Genie.Unit) => x.train_sound, fun x y => { x with train_sound := y }⟩ where
  self _ := rfl
  get_set _ _ := rfl
  fits x hx := by
    have hx : Unit.WF v x := hx
    exact fits_i16.2 hx.train_sound
  wf x hx y hy := by
    have hx : Unit.WF v x := hx
    exact { hx with train_sound := fits_i16.1 hy }
  splits x hx := by
    have hx : Unit.WF v x := hx
    refine ⟨fun i => .packed .h (.int i), .h, ?_⟩
    show Splits _ (fun y => Unit.layout v { x with train_sound := y }) _
    obtain ⟨s0, s1, hs⟩ := Exactly.two hx.standing_graphic
    obtain ⟨p0, p1, hp⟩ := Exactly.two hx.placement_side_terrain
    obtain ⟨q0, q1, hq⟩ := Exactly.two hx.placement_terrain
    obtain ⟨c0, c1, hc⟩ := Exactly.two hx.clearance_size
    by_cases hv : 88 ≤ v.num
    · refine Splits.congr ?_ (fun y _ => Unit.layout_flat88 v { x with train_sound := y } s0 s1 p0 p1 q0 q1 c0 c1 hs hp hq hc hv)
      dsimp only
      walk Splits.here
    · refine Splits.congr ?_ (fun y _ => Unit.layout_flat84 v { x with train_sound := y } s0 s1 p0 p1 q0 q1 c0 c1 hs hp hq hc hv)
      dsimp only
      walk Splits.here

theorem Unit.intField_damage_sound (v : Version) : IntField.OK (.record .Unit) v ⟨"damage_sound", 2, true, fun (x : Genie.Unit) => x.damage_sound, fun x y => { x with damage_sound := y }⟩ where
  self _ := rfl
  get_set _ _ := rfl
  fits x hx := by
    have hx : Unit.WF v x := hx
    exact fits_i16.2 hx.damage_sound
  wf x hx y hy := by
    have hx : Unit.WF v x := hx
    exact { hx with damage_sound := fits_i16.1 hy }
  splits x hx := by
    have hx : Unit.WF v x := hx
    refine ⟨fun i => .packed .h (.int i), .h, ?_⟩
    show Splits _ (fun y => Unit.layout v { x with damage_sound := y }) _
    obtain ⟨s0, s1, hs⟩ := Exactly.two hx.standing_graphic
    obtain ⟨p0, p1, hp⟩ := Exactly.two hx.placement_side_terrain
    obtain ⟨q0, q1, hq⟩ := Exactly.two hx.placement_terrain
    obtain ⟨c0, c1, hc⟩ := Exactly.two hx.clearance_size
    by_cases hv : 88 ≤ v.num
    · refine Splits.congr ?_ (fun y _ => Unit.layout_flat88 v { x with damage_sound := y } s0 s1 p0 p1 q0 q1 c0 c1 hs hp hq hc hv)
      dsimp only
      walk Splits.here
    · refine Splits.congr ?_ (fun y _ => Unit.layout_flat84 v { x with damage_sound := y } s0 s1 p0 p1 q0 q1 c0 c1 hs hp hq hc hv)
      dsimp only
      walk Splits.here

theorem Unit.intField_dead_unit_id (v : Version) : IntField.OK (.record .Unit) v ⟨"dead_unit_id", 2, true, fun (x : Genie.Unit) => x.dead_unit_id, fun x y => { x with dead_unit_id := y }⟩ where
  self _ := rfl
  get_set _ _ := rfl
  fits x hx := by
    have hx : Unit.WF v x := hx
    exact fits_i16.2 hx.dead_unit_id
  wf x hx y hy := by
    have hx : Unit.WF v x := hx
    exact { hx with dead_unit_id := fits_i16.1 hy }
  splits x hx := by
    have hx : Unit.WF v x := hx
    refine ⟨fun i => .packed .h (.int i), .h, ?_⟩
    show Splits _ (fun y => Unit.layout v { x with dead_unit_id := y }) _
    obtain ⟨s0, s1, hs⟩ := Exactly.two hx.standing_graphic
    obtain ⟨p0, p1, hp⟩ := Exactly.two hx.placement_side_terrain
    obtain ⟨q0, q1, hq⟩ := Exactly.two hx.placement_terrain
    obtain ⟨c0, c1, hc⟩ := Exactly.two hx.clearance_size
    by_cases hv : 88 ≤ v.num
    · refine Splits.congr ?_ (fun y _ => Unit.layout_flat88 v { x with dead_unit_id := y } s0 s1 p0 p1 q0 q1 c0 c1 hs hp hq hc hv)
      dsimp only
      walk Splits.here
    · refine Splits.congr ?_ (fun y _ => Unit.layout_flat84 v { x with dead_unit_id := y } s0 s1 p0 p1 q0 q1 c0 c1 hs hp hq hc hv)
      dsimp only
      walk Splits.here

theorem Unit.intField_blood_unit_id (v : Version) : IntField.OK (.record .Unit) v ⟨"blood_unit_id", 2, true, fun (x : Genie.Unit) => x.blood_unit_id, fun x y => { x with blood_unit_id := y }⟩ where
  self _ := rfl
  get_set _ _ := rfl
  fits x hx := by
    have hx : Unit.WF v x := hx
    exact fits_i16.2 hx.blood_unit_id
  wf x hx y hy := by
    have hx : Unit.WF v x := hx
    exact { hx with blood_unit_id := fits_i16.1 hy }
  splits x hx := by
    have hx : Unit.WF v x := hx
    refine ⟨fun i => .packed .h (.int i), .h, ?_⟩
    show Splits _ (fun y => Unit.layout v { x with blood_unit_id := y }) _
    obtain ⟨s0, s1, hs⟩ := Exactly.two hx.standing_graphic
    obtain ⟨p0, p1, hp⟩ := Exactly.two hx.placement_side_terrain
    obtain ⟨q0, q1, hq⟩ := Exactly.two hx.placement_terrain
    obtain ⟨c0, c1, hc⟩ := Exactly.two hx.clearance_size
    by_cases hv : 88 ≤ v.num
    · refine Splits.congr ?_ (fun y _ => Unit.layout_flat88 v { x with blood_unit_id := y } s0 s1 p0 p1 q0 q1 c0 c1 hs hp hq hc hv)
      dsimp only
      walk Splits.here
    · refine Splits.congr ?_ (fun y _ => Unit.layout_flat84 v { x with blood_unit_id := y } s0 s1 p0 p1 q0 q1 c0 c1 hs hp hq hc hv)
      dsimp only
      walk Splits.here

theorem Unit.intField_sort_number (v : Version) : IntField.OK (.record .Unit) v ⟨"sort_number", 1, true, fun (x : Genie.Unit) => x.sort_number, fun x y => { x with sort_number := y }⟩ where
  self _ := rfl
  get_set _ _ := rfl
  fits x hx := by
    have hx : Unit.WF v x := hx
    exact fits_i8.2 hx.sort_number
  wf x hx y hy := by
    have hx : Unit.WF v x := hx
    exact { hx with sort_number := fits_i8.1 hy }
  splits x hx := by
    have hx : Unit.WF v x := hx
    refine ⟨fun i => .packed .b (.int i), .b, ?_⟩
    show Splits _ (fun y => Unit.layout v { x with sort_number := y }) _
    obtain ⟨s0, s1, hs⟩ := Exactly.two hx.standing_graphic
    obtain ⟨p0, p1, hp⟩ := Exactly.two hx.placement_side_terrain
    obtain ⟨q0, q1, hq⟩ := Exactly.two hx.placement_terrain
    obtain ⟨c0, c1, hc⟩ := Exactly.two hx.clearance_size
    by_cases hv : 88 ≤ v.num
    · refine Splits.congr ?_ (fun y _ => Unit.layout_flat88 v { x with sort_number := y } s0 s1 p0 p1 q0 q1 c0 c1 hs hp hq hc hv)
      dsimp only
      walk Splits.here
    · refine Splits.congr ?_ (fun y _ => Unit.layout_flat84 v { x with sort_number := y } s0 s1 p0 p1 q0 q1 c0 c1 hs hp hq hc hv)
      dsimp only
      walk Splits.here

theorem Unit.intField_can_be_built_on (v : Version) : IntField.OK (.record .Unit) v ⟨"can_be_built_on", 1, true, fun (x : Genie.Unit) => x.can_be_built_on, fun x y => { x with can_be_built_on := y }⟩ where
  self _ := rfl
  get_set _ _ := rfl
  fits x hx := by
    have hx : Unit.WF v x := hx
    exact fits_i8.2 hx.can_be_built_on
  wf x hx y hy := by
    have hx : Unit.WF v x := hx
    exact { hx with can_be_built_on := fits_i8.1 hy }
  splits x hx := by
    have hx : Unit.WF v x := hx
    refine ⟨fun i => .packed .b (.int i), .b, ?_⟩
    show Splits _ (fun y => Unit.layout v { x with can_be_built_on := y }) _
    obtain ⟨s0, s1, hs⟩ := Exactly.two hx.standing_graphic
    obtain ⟨p0, p1, hp⟩ := Exactly.two hx.placement_side_terrain
    obtain ⟨q0, q1, hq⟩ := Exactly.two hx.placement_terrain
    obtain ⟨c0, c1, hc⟩ := Exactly.two hx.clearance_size
    by_cases hv : 88 ≤ v.num
    · refine Splits.congr ?_ (fun y _ => Unit.layout_flat88 v { x with can_be_built_on := y } s0 s1 p0 p1 q0 q1 c0 c1 hs hp hq hc hv)
      dsimp only
      walk Splits.here
    · refine Splits.congr ?_ (fun y _ => Unit.layout_flat84 v { x with can_be_built_on := y } s0 s1 p0 p1 q0 q1 c0 c1 hs hp hq hc hv)
      dsimp only
      walk Splits.here

theorem Unit.intField_icon_id (v : Version) : IntField.OK (.record .Unit) v ⟨"icon_id", 2, true, fun (x : Genie.Unit) => x.icon_id, fun x y => { x with icon_id := y }⟩ where
  self _ := rfl
  get_set _ _ := rfl
  fits x hx := by
    have hx : Unit.WF v x := hx
    exact fits_i16.2 hx.icon_id
  wf x hx y hy := by
    have hx : Unit.WF v x := hx
    exact { hx with icon_id := fits_i16.1 hy }
  splits x hx := by
    have hx : Unit.WF v x := hx
    refine ⟨fun i => .packed .h (.int i), .h, ?_⟩
    show Splits _ (fun y => Unit.layout v { x with icon_id := y }) _
    obtain ⟨s0, s1, hs⟩ := Exactly.two hx.standing_graphic
    obtain ⟨p0, p1, hp⟩ := Exactly.two hx.placement_side_terrain
    obtain ⟨q0, q1, hq⟩ := Exactly.two hx.placement_terrain
    obtain ⟨c0, c1, hc⟩ := Exactly.two hx.clearance_size
    by_cases hv : 88 ≤ v.num
    · refine Splits.congr ?_ (fun y _ => Unit.layout_flat88 v { x with icon_id := y } s0 s1 p0 p1 q0 q1 c0 c1 hs hp hq hc hv)
      dsimp only
      walk Splits.here
    · refine Splits.congr ?_ (fun y _ => Unit.layout_flat84 v { x with icon_id := y } s0 s1 p0 p1 q0 q1 c0 c1 hs hp hq hc hv)
      dsimp only
      walk Splits.here

theorem Unit.intField_hide_in_editor (v : Version) : IntField.OK (.record .Unit) v ⟨"hide_in_editor", 1, true, fun (x : Genie.Unit) => x.hide_in_editor, fun x y => { x with hide_in_editor := y }⟩ where
  self _ := rfl
  get_set _ _ := rfl
  fits x hx := by
    have hx : Unit.WF v x := hx
    exact fits_i8.2 hx.hide_in_editor
  wf x hx y hy := by
    have hx : Unit.WF v x := hx
    exact { hx with hide_in_editor := fits_i8.1 hy }
  splits x hx := by
    have hx : Unit.WF v x := hx
    refine ⟨fun i => .packed .b (.int i), .b, ?_⟩
    show Splits _ (fun y => Unit.layout v { x with hide_in_editor := y }) _
    obtain ⟨s0, s1, hs⟩ := Exactly.two hx.standing_graphic
    obtain ⟨p0, p1, hp⟩ := Exactly.two hx.placement_side_terrain
    obtain ⟨q0, q1, hq⟩ := Exactly.two hx.placement_terrain
    obtain ⟨c0, c1, hc⟩ := Exactly.two hx.clearance_size
    by_cases hv : 88 ≤ v.num
    · refine Splits.congr ?_ (fun y _ => Unit.layout_flat88 v { x with hide_in_editor := y } s0 s1 p0 p1 q0 q1 c0 c1 hs hp hq hc hv)
      dsimp only
      walk Splits.here
    · refine Splits.congr ?_ (fun y _ => Unit.layout_flat84 v { x with hide_in_editor := y } s0 s1 p0 p1 q0 q1 c0 c1 hs hp hq hc hv)
      dsimp only
      walk Splits.here

theorem Unit.intField_old_portrait_pict (v : Version) : IntField.OK (.record .Unit) v ⟨"old_portrait_pict", 2, true, fun (x : Genie.Unit) => x.old_portrait_pict, fun x y => { x with old_portrait_pict := y }⟩ where
  self _ := rfl
  get_set _ _ := rfl
  fits x hx := by
    have hx : Unit.WF v x := hx
    exact fits_i16.2 hx.old_portrait_pict
  wf x hx y hy := by
    have hx : Unit.WF v x := hx
    exact { hx with old_portrait_pict := fits_i16.1 hy }
  splits x hx := by
    have hx : Unit.WF v x := hx
    refine ⟨fun i => .packed .h (.int i), .h, ?_⟩
    show Splits _ (fun y => Unit.layout v { x with old_portrait_pict := y }) _
    obtain ⟨s0, s1, hs⟩ := Exactly.two hx.standing_graphic
    obtain ⟨p0, p1, hp⟩ := Exactly.two hx.placement_side_terrain
    obtain ⟨q0, q1, hq⟩ := Exactly.two hx.placement_terrain
    obtain ⟨c0, c1, hc⟩ := Exactly.two hx.clearance_size
    by_cases hv : 88 ≤ v.num
    · refine Splits.congr ?_ (fun y _ => Unit.layout_flat88 v { x with old_portrait_pict := y } s0 s1 p0 p1 q0 q1 c0 c1 hs hp hq hc hv)
      dsimp only
      walk Splits.here
    · refine Splits.congr ?_ (fun y _ => Unit.layout_flat84 v { x with old_portrait_pict := y } s0 s1 p0 p1 q0 q1 c0 c1 hs hp hq hc hv)
      dsimp only
      walk Splits.here

theorem Unit.intField_enabled (v : Version) : IntField.OK (.record .Unit) v ⟨"enabled", 1, true, fun (x : Genie.Unit) => x.enabled, fun x y => { x with enabled := y }⟩ where
  self _ := rfl
  get_set _ _ := rfl
  fits x hx := by
    have hx : Unit.WF v x := hx
    exact fits_i8.2 hx.enabled
  wf x hx y hy := by
    have hx : Unit.WF v x := hx
    exact { hx with enabled := fits_i8.1 hy }
  splits x hx := by
    have hx : Unit.WF v x := hx
    refine ⟨fun i => .packed .b (.int i), .b, ?_⟩
    show Splits _ (fun y => Unit.layout v { x with enabled := y }) _
    obtain ⟨s0, s1, hs⟩ := Exactly.two hx.standing_graphic
    obtain ⟨p0, p1, hp⟩ := Exactly.two hx.placement_side_terrain
    obtain ⟨q0, q1, hq⟩ := Exactly.two hx.placement_terrain
    obtain ⟨c0, c1, hc⟩ := Exactly.two hx.clearance_size
    by_cases hv : 88 ≤ v.num
    · refine Splits.congr ?_ (fun y _ => Unit.layout_flat88 v { x with enabled := y } s0 s1 p0 p1 q0 q1 c0 c1 hs hp hq hc hv)
      dsimp only
      walk Splits.here
    · refine Splits.congr ?_ (fun y _ => Unit.layout_flat84 v { x with enabled := y } s0 s1 p0 p1 q0 q1 c0 c1 hs hp hq hc hv)
      dsimp only
      walk Splits.here

theorem Unit.intField_disabled (v : Version) : IntField.OK (.record .Unit) v ⟨"disabled", 1, true, fun (x : Genie.Unit) => x.disabled, fun x y => { x with disabled := y }⟩ where
  self _ := rfl
  get_set _ _ := rfl
  fits x hx := by
    have hx : Unit.WF v x := hx
    exact fits_i8.2 hx.disabled
  wf x hx y hy := by
    have hx : Unit.WF v x := hx
    exact { hx with disabled := fits_i8.1 hy }
  splits x hx := by
    have hx : Unit.WF v x := hx
    refine ⟨fun i => .packed .b (.int i), .b, ?_⟩
    show Splits _ (fun y => Unit.layout v { x with disabled := y }) _
    obtain ⟨s0, s1, hs⟩ := Exactly.two hx.standing_graphic
    obtain ⟨p0, p1, hp⟩ := Exactly.two hx.placement_side_terrain
    obtain ⟨q0, q1, hq⟩ := Exactly.two hx.placement_terrain
    obtain ⟨c0, c1, hc⟩ := Exactly.two hx.clearance_size
    by_cases hv : 88 ≤ v.num
    · refine Splits.congr ?_ (fun y _ => Unit.layout_flat88 v { x with disabled := y } s0 s1 p0 p1 q0 q1 c0 c1 hs hp hq hc hv)
      dsimp only
      walk Splits.here
    · refine Splits.congr ?_ (fun y _ => Unit.layout_flat84 v { x with disabled := y } s0 s1 p0 p1 q0 q1 c0 c1 hs hp hq hc hv)
      dsimp only
      walk Splits.here

theorem Unit.intField_hill_mode (v : Version) : IntField.OK (.record .Unit) v ⟨"hill_mode", 1, true, fun (x : Genie.Unit) => x.hill_mode, fun x y => { x with hill_mode := y }⟩ where
  self _ := rfl
  get_set _ _ := rfl
  fits x hx := by
    have hx : Unit.WF v x := hx
    exact fits_i8.2 hx.hill_mode
  wf x hx y hy := by
    have hx : Unit.WF v x := hx
    exact { hx with hill_mode := fits_i8.1 hy }
  splits x hx := by
    have hx : Unit.WF v x := hx
    refine ⟨fun i => .packed .b (.int i), .b, ?_⟩
    show Splits _ (fun y => Unit.layout v { x with hill_mode := y }) _
    obtain ⟨s0, s1, hs⟩ := Exactly.two hx.standing_graphic
    obtain ⟨p0, p1, hp⟩ := Exactly.two hx.placement_side_terrain
    obtain ⟨q0, q1, hq⟩ := Exactly.two hx.placement_terrain
    obtain ⟨c0, c1, hc⟩ := Exactly.two hx.clearance_size
    by_cases hv : 88 ≤ v.num
    · refine Splits.congr ?_ (fun y _ => Unit.layout_flat88 v { x with hill_mode := y } s0 s1 p0 p1 q0 q1 c0 c1 hs hp hq hc hv)
      dsimp only
      walk Splits.here
    · refine Splits.congr ?_ (fun y _ => Unit.layout_flat84 v { x with hill_mode := y } s0 s1 p0 p1 q0 q1 c0 c1 hs hp hq hc hv)
      dsimp only
      walk Splits.here

theorem Unit.intField_fog_visibility (v : Version) : IntField.OK (.record .Unit) v ⟨"fog_visibility", 1, true, fun (x : Genie.Unit) => x.fog_visibility, fun x y => { x with fog_visibility := y }⟩ where
  self _ := rfl
  get_set _ _ := rfl
  fits x hx := by
    have hx : Unit.WF v x := hx
    exact fits_i8.2 hx.fog_visibility
  wf x hx y hy := by
    have hx : Unit.WF v x := hx
    exact { hx with fog_visibility := fits_i8.1 hy }
  splits x hx := by
    have hx : Unit.WF v x := hx
    refine ⟨fun i => .packed .b (.int i), .b, ?_⟩
    show Splits _ (fun y => Unit.layout v { x with fog_visibility := y }) _
    obtain ⟨s0, s1, hs⟩ := Exactly.two hx.standing_graphic
    obtain ⟨p0, p1, hp⟩ := Exactly.two hx.placement_side_terrain
    obtain ⟨q0, q1, hq⟩ := Exactly.two hx.placement_terrain
    obtain ⟨c0, c1, hc⟩ := Exactly.two hx.clearance_size
    by_cases hv : 88 ≤ v.num
    · refine Splits.congr ?_ (fun y _ => Unit.layout_flat88 v { x with fog_visibility := y } s0 s1 p0 p1 q0 q1 c0 c1 hs hp hq hc hv)
      dsimp only
      walk Splits.here
    · refine Splits.congr ?_ (fun y _ => Unit.layout_flat84 v { x with fog_visibility := y } s0 s1 p0 p1 q0 q1 c0 c1 hs hp hq hc hv)
      dsimp only
      walk Splits.here

theorem Unit.intField_terrain_restriction (v : Version) : IntField.OK (.record .Unit) v ⟨"terrain_restriction", 2, true, fun (x : Genie.Unit) => x.terrain_restriction, fun x y => { x with terrain_restriction := y }⟩ where
  self _ := rfl
  get_set _ _ := rfl
  fits x hx := by
    have hx : Unit.WF v x := hx
    exact fits_i16.2 hx.terrain_restriction
  wf x hx y hy := by
    have hx : Unit.WF v x := hx
    exact { hx with terrain_restriction := fits_i16.1 hy }
  splits x hx := by
    have hx : Unit.WF v x := hx
    refine ⟨fun i => .packed .h (.int i), .h, ?_⟩
    show Splits _ (fun y => Unit.layout v { x with terrain_restriction := y }) _
    obtain ⟨s0, s1, hs⟩ := Exactly.two hx.standing_graphic
    obtain ⟨p0, p1, hp⟩ := Exactly.two hx.placement_side_terrain
    obtain ⟨q0, q1, hq⟩ := Exactly.two hx.placement_terrain
    obtain ⟨c0, c1, hc⟩ := Exactly.two hx.clearance_size
    by_cases hv : 88 ≤ v.num
    · refine Splits.congr ?_ (fun y _ => Unit.layout_flat88 v { x with terrain_restriction := y } s0 s1 p0 p1 q0 q1 c0 c1 hs hp hq hc hv)
      dsimp only
      walk Splits.here
    · refine Splits.congr ?_ (fun y _ => Unit.layout_flat84 v { x with terrain_restriction := y } s0 s1 p0 p1 q0 q1 c0 c1 hs hp hq hc hv)
      dsimp only
      walk Splits.here

theorem Unit.intField_fly_mode (v : Version) : IntField.OK (.record .Unit) v ⟨"fly_mode", 1, true, fun (x : Genie.Unit) => x.fly_mode, fun x y => { x with fly_mode := y }⟩ where
  self _ := rfl
  get_set _ _ := rfl
  fits x hx := by
    have hx : Unit.WF v x := hx
    exact fits_i8.2 hx.fly_mode
  wf x hx y hy := by
    have hx : Unit.WF v x := hx
    exact { hx with fly_mode := fits_i8.1 hy }
  splits x hx := by
    have hx : Unit.WF v x := hx
    refine ⟨fun i => .packed .b (.int i), .b, ?_⟩
    show Splits _ (fun y => Unit.layout v { x with fly_mode := y }) _
    obtain ⟨s0, s1, hs⟩ := Exactly.two hx.standing_graphic
    obtain ⟨p0, p1, hp⟩ := Exactly.two hx.placement_side_terrain
    obtain ⟨q0, q1, hq⟩ := Exactly.two hx.placement_terrain
    obtain ⟨c0, c1, hc⟩ := Exactly.two hx.clearance_size
    by_cases hv : 88 ≤ v.num
    · refine Splits.congr ?_ (fun y _ => Unit.layout_flat88 v { x with fly_mode := y } s0 s1 p0 p1 q0 q1 c0 c1 hs hp hq hc hv)
      dsimp only
      walk Splits.here
    · refine Splits.congr ?_ (fun y _ => Unit.layout_flat84 v { x with fly_mode := y } s0 s1 p0 p1 q0 q1 c0 c1 hs hp hq hc hv)
      dsimp only
      walk Splits.here

theorem Unit.intField_resource_capacity (v : Version) : IntField.OK (.record .Unit) v ⟨"resource_capacity", 2, true, fun (x : Genie.Unit) => x.resource_capacity, fun x y => { x with resource_capacity := y }⟩ where
  self _ := rfl
  get_set _ _ := rfl
  fits x hx := by
    have hx : Unit.WF v x := hx
    exact fits_i16.2 hx.resource_capacity
  wf x hx y hy := by
    have hx : Unit.WF v x := hx
    exact { hx with resource_capacity := fits_i16.1 hy }
  splits x hx := by
    have hx : Unit.WF v x := hx
    refine ⟨fun i => .packed .h (.int i), .h, ?_⟩
    show Splits _ (fun y => Unit.layout v { x with resource_capacity := y }) _
    obtain ⟨s0, s1, hs⟩ := Exactly.two hx.standing_graphic
    obtain ⟨p0, p1, hp⟩ := Exactly.two hx.placement_side_terrain
    obtain ⟨q0, q1, hq⟩ := Exactly.two hx.placement_terrain
    obtain ⟨c0, c1, hc⟩ := Exactly.two hx.clearance_size
    by_cases hv : 88 ≤ v.num
    · refine Splits.congr ?_ (fun y _ => Unit.layout_flat88 v { x with resource_capacity := y } s0 s1 p0 p1 q0 q1 c0 c1 hs hp hq hc hv)
      dsimp only
      walk Splits.here
    · refine Splits.congr ?_ (fun y _ => Unit.layout_flat84 v { x with resource_capacity := y } s0 s1 p0 p1 q0 q1 c0 c1 hs hp hq hc hv)
      dsimp only
      walk Splits.here

theorem Unit.intField_blast_defense_level (v : Version) : IntField.OK (.record .Unit) v ⟨"blast_defense_level", 1, true, fun (x : Genie.Unit) => x.blast_defense_level, fun x y => { x with blast_defense_level := y }⟩ where
  self _ := rfl
  get_set _ _ := rfl
  fits x hx := by
    have hx : Unit.WF v x := hx
    exact fits_i8.2 hx.blast_defense_level
  wf x hx y hy := by
    have hx : Unit.WF v x := hx
    exact { hx with blast_defense_level := fits_i8.1 hy }
  splits x hx := by
    have hx : Unit.WF v x := hx
    refine ⟨fun i => .packed .b (.int i), .b, ?_⟩
    show Splits _ (fun y => Unit.layout v { x with blast_defense_level := y }) _
    obtain ⟨s0, s1, hs⟩ := Exactly.two hx.standing_graphic
    obtain ⟨p0, p1, hp⟩ := Exactly.two hx.placement_side_terrain
    obtain ⟨q0, q1, hq⟩ := Exactly.two hx.placement_terrain
    obtain ⟨c0, c1, hc⟩ := Exactly.two hx.clearance_size
    by_cases hv : 88 ≤ v.num
    · refine Splits.congr ?_ (fun y _ => Unit.layout_flat88 v { x with blast_defense_level := y } s0 s1 p0 p1 q0 q1 c0 c1 hs hp hq hc hv)
      dsimp only
      walk Splits.here
    · refine Splits.congr ?_ (fun y _ => Unit.layout_flat84 v { x with blast_defense_level := y } s0 s1 p0 p1 q0 q1 c0 c1 hs hp hq hc hv)
      dsimp only
      walk Splits.here

theorem Unit.intField_combat_level (v : Version) : IntField.OK (.record .Unit) v ⟨"combat_level", 1, true, fun (x : Genie.Unit) => x.combat_level, fun x y => { x with combat_level := y }⟩ where
  self _ := rfl
  get_set _ _ := rfl
  fits x hx := by
    have hx : Unit.WF v x := hx
    exact fits_i8.2 hx.combat_level
  wf x hx y hy := by
    have hx : Unit.WF v x := hx
    exact { hx with combat_level := fits_i8.1 hy }
  splits x hx := by
    have hx : Unit.WF v x := hx
    refine ⟨fun i => .packed .b (.int i), .b, ?_⟩
    show Splits _ (fun y => Unit.layout v { x with combat_level := y }) _
    obtain ⟨s0, s1, hs⟩ := Exactly.two hx.standing_graphic
    obtain ⟨p0, p1, hp⟩ := Exactly.two hx.placement_side_terrain
    obtain ⟨q0, q1, hq⟩ := Exactly.two hx.placement_terrain
    obtain ⟨c0, c1, hc⟩ := Exactly.two hx.clearance_size
    by_cases hv : 88 ≤ v.num
    · refine Splits.congr ?_ (fun y _ => Unit.layout_flat88 v { x with combat_level := y } s0 s1 p0 p1 q0 q1 c0 c1 hs hp hq hc hv)
      dsimp only
      walk Splits.here
    · refine Splits.congr ?_ (fun y _ => Unit.layout_flat84 v { x with combat_level := y } s0 s1 p0 p1 q0 q1 c0 c1 hs hp hq hc hv)
      dsimp only
      walk Splits.here

theorem Unit.intField_interaction_mode (v : Version) : IntField.OK (.record .Unit) v ⟨"interaction_mode", 1, true, fun (x : Genie.Unit) => x.interaction_mode, fun x y => { x with interaction_mode := y }⟩ where
  self _ := rfl
  get_set _ _ := rfl
  fits x hx := by
    have hx : Unit.WF v x := hx
    exact fits_i8.2 hx.interaction_mode
  wf x hx y hy := by
    have hx : Unit.WF v x := hx
    exact { hx with interaction_mode := fits_i8.1 hy }
  splits x hx := by
    have hx : Unit.WF v x := hx
    refine ⟨fun i => .packed .b (.int i), .b, ?_⟩
    show Splits _ (fun y => Unit.layout v { x with interaction_mode := y }) _
    obtain ⟨s0, s1, hs⟩ := Exactly.two hx.standing_graphic
    obtain ⟨p0, p1, hp⟩ := Exactly.two hx.placement_side_terrain
    obtain ⟨q0, q1, hq⟩ := Exactly.two hx.placement_terrain
    obtain ⟨c0, c1, hc⟩ := Exactly.two hx.clearance_size
    by_cases hv : 88 ≤ v.num
    · refine Splits.congr ?_ (fun y _ => Unit.layout_flat88 v { x with interaction_mode := y } s0 s1 p0 p1 q0 q1 c0 c1 hs hp hq hc hv)
      dsimp only
      walk Splits.here
    · refine Splits.congr ?_ (fun y _ => Unit.layout_flat84 v { x with interaction_mode := y } s0 s1 p0 p1 q0 q1 c0 c1 hs hp hq hc hv)
      dsimp only
      walk Splits.here

theorem Unit.intField_minimap_mode (v : Version) : IntField.OK (.record .Unit) v ⟨"minimap_mode", 1, true, fun (x : Genie.Unit) => x.minimap_mode, fun x y => { x with minimap_mode := y }⟩ where
  self _ := rfl
  get_set _ _ := rfl
  fits x hx := by
    have hx : Unit.WF v x := hx
    exact fits_i8.2 hx.minimap_mode
  wf x hx y hy := by
    have hx : Unit.WF v x := hx
    exact { hx with minimap_mode := fits_i8.1 hy }
  splits x hx := by
    have hx : Unit.WF v x := hx
    refine ⟨fun i => .packed .b (.int i), .b, ?_⟩
    show Splits _ (fun y => Unit.layout v { x with minimap_mode := y }) _
    obtain ⟨s0, s1, hs⟩ := Exactly.two hx.standing_graphic
    obtain ⟨p0, p1, hp⟩ := Exactly.two hx.placement_side_terrain
    obtain ⟨q0, q1, hq⟩ := Exactly.two hx.placement_terrain
    obtain ⟨c0, c1, hc⟩ := Exactly.two hx.clearance_size
    by_cases hv : 88 ≤ v.num
    · refine Splits.congr ?_ (fun y _ => Unit.layout_flat88 v { x with minimap_mode := y } s0 s1 p0 p1 q0 q1 c0 c1 hs hp hq hc hv)
      dsimp only
      walk Splits.here
    · refine Splits.congr ?_ (fun y _ => Unit.layout_flat84 v { x with minimap_mode := y } s0 s1 p0 p1 q0 q1 c0 c1 hs hp hq hc hv)
      dsimp only
      walk Splits.here

theorem Unit.intField_interface_kind (v : Version) : IntField.OK (.record .Unit) v ⟨"interface_kind", 1, true, fun (x : Genie.Unit) => x.interface_kind, fun x y => { x with interface_kind := y }⟩ where
  self _ := rfl
  get_set _ _ := rfl
  fits x hx := by
    have hx : Unit.WF v x := hx
    exact fits_i8.2 hx.interface_kind
  wf x hx y hy := by
    have hx : Unit.WF v x := hx
    exact { hx with interface_kind := fits_i8.1 hy }
  splits x hx := by
    have hx : Unit.WF v x := hx
    refine ⟨fun i => .packed .b (.int i), .b, ?_⟩
    show Splits _ (fun y => Unit.layout v { x with interface_kind := y }) _
    obtain ⟨s0, s1, hs⟩ := Exactly.two hx.standing_graphic
    obtain ⟨p0, p1, hp⟩ := Exactly.two hx.placement_side_terrain
    obtain ⟨q0, q1, hq⟩ := Exactly.two hx.placement_terrain
    obtain ⟨c0, c1, hc⟩ := Exactly.two hx.clearance_size
    by_cases hv : 88 ≤ v.num
    · refine Splits.congr ?_ (fun y _ => Unit.layout_flat88 v { x with interface_kind := y } s0 s1 p0 p1 q0 q1 c0 c1 hs hp hq hc hv)
      dsimp only
      walk Splits.here
    · refine Splits.congr ?_ (fun y _ => Unit.layout_flat84 v { x with interface_kind := y } s0 s1 p0 p1 q0 q1 c0 c1 hs hp hq hc hv)
      dsimp only
      walk Splits.here

theorem Unit.intField_minimap_color (v : Version) : IntField.OK (.record .Unit) v ⟨"minimap_color", 1, true, fun (x : Genie.Unit) => x.minimap_color, fun x y => { x with minimap_color := y }⟩ where
  self _ := rfl
  get_set _ _ := rfl
  fits x hx := by
    have hx : Unit.WF v x := hx
    exact fits_i8.2 hx.minimap_color
  wf x hx y hy := by
    have hx : Unit.WF v x := hx
    exact { hx with minimap_color := fits_i8.1 hy }
  splits x hx := by
    have hx : Unit.WF v x := hx
    refine ⟨fun i => .packed .b (.int i), .b, ?_⟩
    show Splits _ (fun y => Unit.layout v { x with minimap_color := y }) _
    obtain ⟨s0, s1, hs⟩ := Exactly.two hx.standing_graphic
    obtain ⟨p0, p1, hp⟩ := Exactly.two hx.placement_side_terrain
    obtain ⟨q0, q1, hq⟩ := Exactly.two hx.placement_terrain
    obtain ⟨c0, c1, hc⟩ := Exactly.two hx.clearance_size
    by_cases hv : 88 ≤ v.num
    · refine Splits.congr ?_ (fun y _ => Unit.layout_flat88 v { x with minimap_color := y } s0 s1 p0 p1 q0 q1 c0 c1 hs hp hq hc hv)
      dsimp only
      walk Splits.here
    · refine Splits.congr ?_ (fun y _ => Unit.layout_flat84 v { x with minimap_color := y } s0 s1 p0 p1 q0 q1 c0 c1 hs hp hq hc hv)
      dsimp only
      walk Splits.here

theorem Unit.intField_language_dll_help (v : Version) : IntField.OK (.record .Unit) v ⟨"language_dll_help", 4, true, fun (x : Genie.Unit) => x.language_dll_help, fun x y => { x with language_dll_help := y }⟩ where
  self _ := rfl
  get_set _ _ := rfl
  fits x hx := by
    have hx : Unit.WF v x := hx
    exact fits_i32.2 hx.language_dll_help
  wf x hx y hy := by
    have hx : Unit.WF v x := hx
    exact { hx with language_dll_help := fits_i32.1 hy }
  splits x hx := by
    have hx : Unit.WF v x := hx
    refine ⟨fun i => .packed .l (.int i), .l, ?_⟩
    show Splits _ (fun y => Unit.layout v { x with language_dll_help := y }) _
    obtain ⟨s0, s1, hs⟩ := Exactly.two hx.standing_graphic
    obtain ⟨p0, p1, hp⟩ := Exactly.two hx.placement_side_terrain
    obtain ⟨q0, q1, hq⟩ := Exactly.two hx.placement_terrain
    obtain ⟨c0, c1, hc⟩ := Exactly.two hx.clearance_size
    by_cases hv : 88 ≤ v.num
    · refine Splits.congr ?_ (fun y _ => Unit.layout_flat88 v { x with language_dll_help := y } s0 s1 p0 p1 q0 q1 c0 c1 hs hp hq hc hv)
      dsimp only
      walk Splits.here
    · refine Splits.congr ?_ (fun y _ => Unit.layout_flat84 v { x with language_dll_help := y } s0 s1 p0 p1 q0 q1 c0 c1 hs hp hq hc hv)
      dsimp only
      walk Splits.here

theorem Unit.intField_language_dll_hotkey_text (v : Version) : IntField.OK (.record .Unit) v ⟨"language_dll_hotkey_text", 4, true, fun (x : Genie.Unit) => x.language_dll_hotkey_text, fun x y => { x with language_dll_hotkey_text := y }⟩ where
  self _ := rfl
  get_set _ _ := rfl
  fits x hx := by
    have hx : Unit.WF v x := hx
    exact fits_i32.2 hx.language_dll_hotkey_text
  wf x hx y hy := by
    have hx : Unit.WF v x := hx
    exact { hx with language_dll_hotkey_text := fits_i32.1 hy }
  splits x hx := by
    have hx : Unit.WF v x := hx
    refine ⟨fun i => .packed .l (.int i), .l, ?_⟩
    show Splits _ (fun y => Unit.layout v { x with language_dll_hotkey_text := y }) _
    obtain ⟨s0, s1, hs⟩ := Exactly.two hx.standing_graphic
    obtain ⟨p0, p1, hp⟩ := Exactly.two hx.placement_side_terrain
    obtain ⟨q0, q1, hq⟩ := Exactly.two hx.placement_terrain
    obtain ⟨c0, c1, hc⟩ := Exactly.two hx.clearance_size
    by_cases hv : 88 ≤ v.num
    · refine Splits.congr ?_ (fun y _ => Unit.layout_flat88 v { x with language_dll_hotkey_text := y } s0 s1 p0 p1 q0 q1 c0 c1 hs hp hq hc hv)
      dsimp only
      walk Splits.here
    · refine Splits.congr ?_ (fun y _ => Unit.layout_flat84 v { x with language_dll_hotkey_text := y } s0 s1 p0 p1 q0 q1 c0 c1 hs hp hq hc hv)
      dsimp only
      walk Splits.here

theorem Unit.intField_recyclable (v : Version) : IntField.OK (.record .Unit) v ⟨"recyclable", 1, true, fun (x : Genie.Unit) => x.recyclable, fun x y => { x with recyclable := y }⟩ where
  self _ := rfl
  get_set _ _ := rfl
  fits x hx := by
    have hx : Unit.WF v x := hx
    exact fits_i8.2 hx.recyclable
  wf x hx y hy := by
    have hx : Unit.WF v x := hx
    exact { hx with recyclable := fits_i8.1 hy }
  splits x hx := by
    have hx : Unit.WF v x := hx
    refine ⟨fun i => .packed .b (.int i), .b, ?_⟩
    show Splits _ (fun y => Unit.layout v { x with recyclable := y }) _
    obtain ⟨s0, s1, hs⟩ := Exactly.two hx.standing_graphic
    obtain ⟨p0, p1, hp⟩ := Exactly.two hx.placement_side_terrain
    obtain ⟨q0, q1, hq⟩ := Exactly.two hx.placement_terrain
    obtain ⟨c0, c1, hc⟩ := Exactly.two hx.clearance_size
    by_cases hv : 88 ≤ v.num
    · refine Splits.congr ?_ (fun y _ => Unit.layout_flat88 v { x with recyclable := y } s0 s1 p0 p1 q0 q1 c0 c1 hs hp hq hc hv)
      dsimp only
      walk Splits.here
    · refine Splits.congr ?_ (fun y _ => Unit.layout_flat84 v { x with recyclable := y } s0 s1 p0 p1 q0 q1 c0 c1 hs hp hq hc hv)
      dsimp only
      walk Splits.here

theorem Unit.intField_enable_auto_gather (v : Version) : IntField.OK (.record .Unit) v ⟨"enable_auto_gather", 1, true, fun (x : Genie.Unit) => x.enable_auto_gather, fun x y => { x with enable_auto_gather := y }⟩ where
  self _ := rfl
  get_set _ _ := rfl
  fits x hx := by
    have hx : Unit.WF v x := hx
    exact fits_i8.2 hx.enable_auto_gather
  wf x hx y hy := by
    have hx : Unit.WF v x := hx
    exact { hx with enable_auto_gather := fits_i8.1 hy }
  splits x hx := by
    have hx : Unit.WF v x := hx
    refine ⟨fun i => .packed .b (.int i), .b, ?_⟩
    show Splits _ (fun y => Unit.layout v { x with enable_auto_gather := y }) _
    obtain ⟨s0, s1, hs⟩ := Exactly.two hx.standing_graphic
    obtain ⟨p0, p1, hp⟩ := Exactly.two hx.placement_side_terrain
    obtain ⟨q0, q1, hq⟩ := Exactly.two hx.placement_terrain
    obtain ⟨c0, c1, hc⟩ := Exactly.two hx.clearance_size
    by_cases hv : 88 ≤ v.num
    · refine Splits.congr ?_ (fun y _ => Unit.layout_flat88 v { x with enable_auto_gather := y } s0 s1 p0 p1 q0 q1 c0 c1 hs hp hq hc hv)
      dsimp only
      walk Splits.here
    · refine Splits.congr ?_ (fun y _ => Unit.layout_flat84 v { x with enable_auto_gather := y } s0 s1 p0 p1 q0 q1 c0 c1 hs hp hq hc hv)
      dsimp only
      walk Splits.here

theorem Unit.intField_create_doppelganger_on_death (v : Version) : IntField.OK (.record .Unit) v ⟨"create_doppelganger_on_death", 1, true, fun (x : Genie.Unit) => x.create_doppelganger_on_death, fun x y => { x with create_doppelganger_on_death := y }⟩ where
  self _ := rfl
  get_set _ _ := rfl
  fits x hx := by
    have hx : Unit.WF v x := hx
    exact fits_i8.2 hx.create_doppelganger_on_death
  wf x hx y hy := by
    have hx : Unit.WF v x := hx
    exact { hx with create_doppelganger_on_death := fits_i8.1 hy }
  splits x hx := by
    have hx : Unit.WF v x := hx
    refine ⟨fun i => .packed .b (.int i), .b, ?_⟩
    show Splits _ (fun y => Unit.layout v { x with create_doppelganger_on_death := y }) _
    obtain ⟨s0, s1, hs⟩ := Exactly.two hx.standing_graphic
    obtain ⟨p0, p1, hp⟩ := Exactly.two hx.placement_side_terrain
    obtain ⟨q0, q1, hq⟩ := Exactly.two hx.placement_terrain
    obtain ⟨c0, c1, hc⟩ := Exactly.two hx.clearance_size
    by_cases hv : 88 ≤ v.num
    · refine Splits.congr ?_ (fun y _ => Unit.layout_flat88 v { x with create_doppelganger_on_death := y } s0 s1 p0 p1 q0 q1 c0 c1 hs hp hq hc hv)
      dsimp only
      walk Splits.here
    · refine Splits.congr ?_ (fun y _ => Unit.layout_flat84 v { x with create_doppelganger_on_death := y } s0 s1 p0 p1 q0 q1 c0 c1 hs hp hq hc hv)
      dsimp only
      walk Splits.here

theorem Unit.intField_resource_gather_group (v : Version) : IntField.OK (.record .Unit) v ⟨"resource_gather_group", 1, true, fun (x : Genie.Unit) => x.resource_gather_group, fun x y => { x with resource_gather_group := y }⟩ where
  self _ := rfl
  get_set _ _ := rfl
  fits x hx := by
    have hx : Unit.WF v x := hx
    exact fits_i8.2 hx.resource_gather_group
  wf x hx y hy := by
    have hx : Unit.WF v x := hx
    exact { hx with resource_gather_group := fits_i8.1 hy }
  splits x hx := by
    have hx : Unit.WF v x := hx
    refine ⟨fun i => .packed .b (.int i), .b, ?_⟩
    show Splits _ (fun y => Unit.layout v { x with resource_gather_group := y }) _
    obtain ⟨s0, s1, hs⟩ := Exactly.two hx.standing_graphic
    obtain ⟨p0, p1, hp⟩ := Exactly.two hx.placement_side_terrain
    obtain ⟨q0, q1, hq⟩ := Exactly.two hx.placement_terrain
    obtain ⟨c0, c1, hc⟩ := Exactly.two hx.clearance_size
    by_cases hv : 88 ≤ v.num
    · refine Splits.congr ?_ (fun y _ => Unit.layout_flat88 v { x with resource_gather_group := y } s0 s1 p0 p1 q0 q1 c0 c1 hs hp hq hc hv)
      dsimp only
      walk Splits.here
    · refine Splits.congr ?_ (fun y _ => Unit.layout_flat84 v { x with resource_gather_group := y } s0 s1 p0 p1 q0 q1 c0 c1 hs hp hq hc hv)
      dsimp only
      walk Splits.here

theorem Unit.intField_occlusion_mode (v : Version) : IntField.OK (.record .Unit) v ⟨"occlusion_mode", 1, true, fun (x : Genie.Unit) => x.occlusion_mode, fun x y => { x with occlusion_mode := y }⟩ where
  self _ := rfl
  get_set _ _ := rfl
  fits x hx := by
    have hx : Unit.WF v x := hx
    exact fits_i8.2 hx.occlusion_mode
  wf x hx y hy := by
    have hx : Unit.WF v x := hx
    exact { hx with occlusion_mode := fits_i8.1 hy }
  splits x hx := by
    have hx : Unit.WF v x := hx
    refine ⟨fun i => .packed .b (.int i), .b, ?_⟩
    show Splits _ (fun y => Unit.layout v { x with occlusion_mode := y }) _
    obtain ⟨s0, s1, hs⟩ := Exactly.two hx.standing_graphic
    obtain ⟨p0, p1, hp⟩ := Exactly.two hx.placement_side_terrain
    obtain ⟨q0, q1, hq⟩ := Exactly.two hx.placement_terrain
    obtain ⟨c0, c1, hc⟩ := Exactly.two hx.clearance_size
    by_cases hv : 88 ≤ v.num
    · refine Splits.congr ?_ (fun y _ => Unit.layout_flat88 v { x with occlusion_mode := y } s0 s1 p0 p1 q0 q1 c0 c1 hs hp hq hc hv)
      dsimp only
      walk Splits.here
    · refine Splits.congr ?_ (fun y _ => Unit.layout_flat84 v { x with occlusion_mode := y } s0 s1 p0 p1 q0 q1 c0 c1 hs hp hq hc hv)
      dsimp only
      walk Splits.here

theorem Unit.intField_obstruction_type (v : Version) : IntField.OK (.record .Unit) v ⟨"obstruction_type", 1, true, fun (x : Genie.Unit) => x.obstruction_type, fun x y => { x with obstruction_type := y }⟩ where
  self _ := rfl
  get_set _ _ := rfl
  fits x hx := by
    have hx : Unit.WF v x := hx
    exact fits_i8.2 hx.obstruction_type
  wf x hx y hy := by
    have hx : Unit.WF v x := hx
    exact { hx with obstruction_type := fits_i8.1 hy }
  splits x hx := by
    have hx : Unit.WF v x := hx
    refine ⟨fun i => .packed .b (.int i), .b, ?_⟩
    show Splits _ (fun y => Unit.layout v { x with obstruction_type := y }) _
    obtain ⟨s0, s1, hs⟩ := Exactly.two hx.standing_graphic
    obtain ⟨p0, p1, hp⟩ := Exactly.two hx.placement_side_terrain
    obtain ⟨q0, q1, hq⟩ := Exactly.two hx.placement_terrain
    obtain ⟨c0, c1, hc⟩ := Exactly.two hx.clearance_size
    by_cases hv : 88 ≤ v.num
    · refine Splits.congr ?_ (fun y _ => Unit.layout_flat88 v { x with obstruction_type := y } s0 s1 p0 p1 q0 q1 c0 c1 hs hp hq hc hv)
      dsimp only
      walk Splits.here
    · refine Splits.congr ?_ (fun y _ => Unit.layout_flat84 v { x with obstruction_type := y } s0 s1 p0 p1 q0 q1 c0 c1 hs hp hq hc hv)
      dsimp only
      walk Splits.here

theorem Unit.intField_obstruction_class (v : Version) : IntField.OK (.record .Unit) v ⟨"obstruction_class", 1, true, fun (x : Genie.Unit) => x.obstruction_class, fun x y => { x with obstruction_class := y }⟩ where
  self _ := rfl
  get_set _ _ := rfl
  fits x hx := by
    have hx : Unit.WF v x := hx
    exact fits_i8.2 hx.obstruction_class
  wf x hx y hy := by
    have hx : Unit.WF v x := hx
    exact { hx with obstruction_class := fits_i8.1 hy }
  splits x hx := by
    have hx : Unit.WF v x := hx
    refine ⟨fun i => .packed .b (.int i), .b, ?_⟩
    show Splits _ (fun y => Unit.layout v { x with obstruction_class := y }) _
    obtain ⟨s0, s1, hs⟩ := Exactly.two hx.standing_graphic
    obtain ⟨p0, p1, hp⟩ := Exactly.two hx.placement_side_terrain
    obtain ⟨q0, q1, hq⟩ := Exactly.two hx.placement_terrain
    obtain ⟨c0, c1, hc⟩ := Exactly.two hx.clearance_size
    by_cases hv : 88 ≤ v.num
    · refine Splits.congr ?_ (fun y _ => Unit.layout_flat88 v { x with obstruction_class := y } s0 s1 p0 p1 q0 q1 c0 c1 hs hp hq hc hv)
      dsimp only
      walk Splits.here
    · refine Splits.congr ?_ (fun y _ => Unit.layout_flat84 v { x with obstruction_class := y } s0 s1 p0 p1 q0 q1 c0 c1 hs hp hq hc hv)
      dsimp only
      walk Splits.here

theorem Unit.intField_trait (v : Version) : IntField.OK (.record .Unit) v ⟨"trait", 1, true, fun (x : Genie.Unit) => x.trait, fun x y => { x with trait := y }⟩ where
  self _ := rfl
  get_set _ _ := rfl
  fits x hx := by
    have hx : Unit.WF v x := hx
    exact fits_i8.2 hx.trait
  wf x hx y hy := by
    have hx : Unit.WF v x := hx
    exact { hx with trait := fits_i8.1 hy }
  splits x hx := by
    have hx : Unit.WF v x := hx
    refine ⟨fun i => .packed .b (.int i), .b, ?_⟩
    show Splits _ (fun y => Unit.layout v { x with trait := y }) _
    obtain ⟨s0, s1, hs⟩ := Exactly.two hx.standing_graphic
    obtain ⟨p0, p1, hp⟩ := Exactly.two hx.placement_side_terrain
    obtain ⟨q0, q1, hq⟩ := Exactly.two hx.placement_terrain
    obtain ⟨c0, c1, hc⟩ := Exactly.two hx.clearance_size
    by_cases hv : 88 ≤ v.num
    · refine Splits.congr ?_ (fun y _ => Unit.layout_flat88 v { x with trait := y } s0 s1 p0 p1 q0 q1 c0 c1 hs hp hq hc hv)
      dsimp only
      walk Splits.here
    · refine Splits.congr ?_ (fun y _ => Unit.layout_flat84 v { x with trait := y } s0 s1 p0 p1 q0 q1 c0 c1 hs hp hq hc hv)
      dsimp only
      walk Splits.here

theorem Unit.intField_civilization (v : Version) : IntField.OK (.record .Unit) v ⟨"civilization", 1, true, fun (x : Genie.Unit) => x.civilization, fun x y => { x with civilization := y }⟩ where
  self _ := rfl
  get_set _ _ := rfl
  fits x hx := by
    have hx : Unit.WF v x := hx
    exact fits_i8.2 hx.civilization
  wf x hx y hy := by
    have hx : Unit.WF v x := hx
    exact { hx with civilization := fits_i8.1 hy }
  splits x hx := by
    have hx : Unit.WF v x := hx
    refine ⟨fun i => .packed .b (.int i), .b, ?_⟩
    show Splits _ (fun y => Unit.layout v { x with civilization := y }) _
    obtain ⟨s0, s1, hs⟩ := Exactly.two hx.standing_graphic
    obtain ⟨p0, p1, hp⟩ := Exactly.two hx.placement_side_terrain
    obtain ⟨q0, q1, hq⟩ := Exactly.two hx.placement_terrain
    obtain ⟨c0, c1, hc⟩ := Exactly.two hx.clearance_size
    by_cases hv : 88 ≤ v.num
    · refine Splits.congr ?_ (fun y _ => Unit.layout_flat88 v { x with civilization := y } s0 s1 p0 p1 q0 q1 c0 c1 hs hp hq hc hv)
      dsimp only
      walk Splits.here
    · refine Splits.congr ?_ (fun y _ => Unit.layout_flat84 v { x with civilization := y } s0 s1 p0 p1 q0 q1 c0 c1 hs hp hq hc hv)
      dsimp only
      walk Splits.here

theorem Unit.intField_nothing (v : Version) : IntField.OK (.record .Unit) v ⟨"nothing", 2, true, fun (x : Genie.Unit) => x.nothing, fun x y => { x with nothing := y }⟩ where
  self _ := rfl
  get_set _ _ := rfl
  fits x hx := by
    have hx : Unit.WF v x := hx
    exact fits_i16.2 hx.nothing
  wf x hx y hy := by
    have hx : Unit.WF v x := hx
    exact { hx with nothing := fits_i16.1 hy }
  splits x hx := by
    have hx : Unit.WF v x := hx
    refine ⟨fun i => .packed .h (.int i), .h, ?_⟩
    show Splits _ (fun y => Unit.layout v { x with nothing := y }) _
    obtain ⟨s0, s1, hs⟩ := Exactly.two hx.standing_graphic
    obtain ⟨p0, p1, hp⟩ := Exactly.two hx.placement_side_terrain
    obtain ⟨q0, q1, hq⟩ := Exactly.two hx.placement_terrain
    obtain ⟨c0, c1, hc⟩ := Exactly.two hx.clearance_size
    by_cases hv : 88 ≤ v.num
    · refine Splits.congr ?_ (fun y _ => Unit.layout_flat88 v { x with nothing := y } s0 s1 p0 p1 q0 q1 c0 c1 hs hp hq hc hv)
      dsimp only
      walk Splits.here
    · refine Splits.congr ?_ (fun y _ => Unit.layout_flat84 v { x with nothing := y } s0 s1 p0 p1 q0 q1 c0 c1 hs hp hq hc hv)
      dsimp only
      walk Splits.here

theorem Unit.intField_selection_effect (v : Version) : IntField.OK (.record .Unit) v ⟨"selection_effect", 1, true, fun (x : Genie.Unit) => x.selection_effect, fun x y => { x with selection_effect := y }⟩ where
  self _ := rfl
  get_set _ _ := rfl
  fits x hx := by
    have hx : Unit.WF v x := hx
    exact fits_i8.2 hx.selection_effect
  wf x hx y hy := by
    have hx : Unit.WF v x := hx
    exact { hx with selection_effect := fits_i8.1 hy }
  splits x hx := by
    have hx : Unit.WF v x := hx
    refine ⟨fun i => .packed .b (.int i), .b, ?_⟩
    show Splits _ (fun y => Unit.layout v { x with selection_effect := y }) _
    obtain ⟨s0, s1, hs⟩ := Exactly.two hx.standing_graphic
    obtain ⟨p0, p1, hp⟩ := Exactly.two hx.placement_side_terrain
    obtain ⟨q0, q1, hq⟩ := Exactly.two hx.placement_terrain
    obtain ⟨c0, c1, hc⟩ := Exactly.two hx.clearance_size
    by_cases hv : 88 ≤ v.num
    · refine Splits.congr ?_ (fun y _ => Unit.layout_flat88 v { x with selection_effect := y } s0 s1 p0 p1 q0 q1 c0 c1 hs hp hq hc hv)
      dsimp only
      walk Splits.here
    · refine Splits.congr ?_ (fun y _ => Unit.layout_flat84 v { x with selection_effect := y } s0 s1 p0 p1 q0 q1 c0 c1 hs hp hq hc hv)
      dsimp only
      walk Splits.here

theorem Unit.intField_editor_selection_colour (v : Version) : IntField.OK (.record .Unit) v ⟨"editor_selection_colour", 1, true, fun (x : Genie.Unit) => x.editor_selection_colour, fun x y => { x with editor_selection_colour := y }⟩ where
  self _ := rfl
  get_set _ _ := rfl
  fits x hx := by
    have hx : Unit.WF v x := hx
    exact fits_i8.2 hx.editor_selection_colour
  wf x hx y hy := by
    have hx : Unit.WF v x := hx
    exact { hx with editor_selection_colour := fits_i8.1 hy }
  splits x hx := by
    have hx : Unit.WF v x := hx
    refine ⟨fun i => .packed .b (.int i), .b, ?_⟩
    show Splits _ (fun y => Unit.layout v { x with editor_selection_colour := y }) _
    obtain ⟨s0, s1, hs⟩ := Exactly.two hx.standing_graphic
    obtain ⟨p0, p1, hp⟩ := Exactly.two hx.placement_side_terrain
    obtain ⟨q0, q1, hq⟩ := Exactly.two hx.placement_terrain
    obtain ⟨c0, c1, hc⟩ := Exactly.two hx.clearance_size
    by_cases hv : 88 ≤ v.num
    · refine Splits.congr ?_ (fun y _ => Unit.layout_flat88 v { x with editor_selection_colour := y } s0 s1 p0 p1 q0 q1 c0 c1 hs hp hq hc hv)
      dsimp only
      walk Splits.here
    · refine Splits.congr ?_ (fun y _ => Unit.layout_flat84 v { x with editor_selection_colour := y } s0 s1 p0 p1 q0 q1 c0 c1 hs hp hq hc hv)
      dsimp only
      walk Splits.here

theorem Unit.intField_scenario_triggers_1 (v : Version) : IntField.OK (.record .Unit) v ⟨"scenario_triggers_1", 4, true, fun (x : Genie.Unit) => x.scenario_triggers_1, fun x y => { x with scenario_triggers_1 := y }⟩ where
  self _ := rfl
  get_set _ _ := rfl
  fits x hx := by
    have hx : Unit.WF v x := hx
    exact fits_i32.2 hx.scenario_triggers_1
  wf x hx y hy := by
    have hx : Unit.WF v x := hx
    exact { hx with scenario_triggers_1 := fits_i32.1 hy }
  splits x hx := by
    have hx : Unit.WF v x := hx
    refine ⟨fun i => .packed .l (.int i), .l, ?_⟩
    show Splits _ (fun y => Unit.layout v { x with scenario_triggers_1 := y }) _
    obtain ⟨s0, s1, hs⟩ := Exactly.two hx.standing_graphic
    obtain ⟨p0, p1, hp⟩ := Exactly.two hx.placement_side_terrain
    obtain ⟨q0, q1, hq⟩ := Exactly.two hx.placement_terrain
    obtain ⟨c0, c1, hc⟩ := Exactly.two hx.clearance_size
    by_cases hv : 88 ≤ v.num
    · refine Splits.congr ?_ (fun y _ => Unit.layout_flat88 v { x with scenario_triggers_1 := y } s0 s1 p0 p1 q0 q1 c0 c1 hs hp hq hc hv)
      dsimp only
      walk Splits.here
    · refine Splits.congr ?_ (fun y _ => Unit.layout_flat84 v { x with scenario_triggers_1 := y } s0 s1 p0 p1 q0 q1 c0 c1 hs hp hq hc hv)
      dsimp only
      walk Splits.here

theorem Unit.intField_scenario_triggers_2 (v : Version) : IntField.OK (.record .Unit) v ⟨"scenario_triggers_2", 4, true, fun (x : Genie.Unit) => x.scenario_triggers_2, fun x y => { x with scenario_triggers_2 := y }⟩ where
  self _ := rfl
  get_set _ _ := rfl
  fits x hx := by
    have hx : Unit.WF v x := hx
    exact fits_i32.2 hx.scenario_triggers_2
  wf x hx y hy := by
    have hx : Unit.WF v x := hx
    exact { hx with scenario_triggers_2 := fits_i32.1 hy }
  splits x hx := by
    have hx : Unit.WF v x := hx
    refine ⟨fun i => .packed .l (.int i), .l, ?_⟩
    show Splits _ (fun y => Unit.layout v { x with scenario_triggers_2 := y }) _
    obtain ⟨s0, s1, hs⟩ := Exactly.two hx.standing_graphic
    obtain ⟨p0, p1, hp⟩ := Exactly.two hx.placement_side_terrain
    obtain ⟨q0, q1, hq⟩ := Exactly.two hx.placement_terrain
    obtain ⟨c0, c1, hc⟩ := Exactly.two hx.clearance_size
    by_cases hv : 88 ≤ v.num
    · refine Splits.congr ?_ (fun y _ => Unit.layout_flat88 v { x with scenario_triggers_2 := y } s0 s1 p0 p1 q0 q1 c0 c1 hs hp hq hc hv)
      dsimp only
      walk Splits.here
    · refine Splits.congr ?_ (fun y _ => Unit.layout_flat84 v { x with scenario_triggers_2 := y } s0 s1 p0 p1 q0 q1 c0 c1 hs hp hq hc hv)
      dsimp only
      walk Splits.here

theorem Unit.intField_selection_sound (v : Version) : IntField.OK (.record .Unit) v ⟨"selection_sound", 2, true, fun (x : Genie.Unit) => x.selection_sound, fun x y => { x with selection_sound := y }⟩ where
  self _ := rfl
  get_set _ _ := rfl
  fits x hx := by
    have hx : Unit.WF v x := hx
    exact fits_i16.2 hx.selection_sound
  wf x hx y hy := by
    have hx : Unit.WF v x := hx
    exact { hx with selection_sound := fits_i16.1 hy }
  splits x hx := by
    have hx : Unit.WF v x := hx
    refine ⟨fun i => .int 2 true i, .int _ _, ?_⟩
    show Splits _ (fun y => Unit.layout v { x with selection_sound := y }) _
    simp only [Unit.layout_eq]
    walk Splits.here

theorem Unit.intField_dying_sound (v : Version) : IntField.OK (.record .Unit) v ⟨"dying_sound", 2, true, fun (x : Genie.Unit) => x.dying_sound, fun x y => { x with dying_sound := y }⟩ where
  self _ := rfl
  get_set _ _ := rfl
  fits x hx := by
    have hx : Unit.WF v x := hx
    exact fits_i16.2 hx.dying_sound
  wf x hx y hy := by
    have hx : Unit.WF v x := hx
    exact { hx with dying_sound := fits_i16.1 hy }
  splits x hx := by
    have hx : Unit.WF v x := hx
    refine ⟨fun i => .int 2 true i, .int _ _, ?_⟩
    show Splits _ (fun y => Unit.layout v { x with dying_sound := y }) _
    simp only [Unit.layout_eq]
    walk Splits.here

theorem Unit.intField_wwise_train_sound_id (v : Version) : IntField.OK (.record .Unit) v ⟨"wwise_train_sound_id", 4, true, fun (x : Genie.Unit) => x.wwise_train_sound_id, fun x y => { x with wwise_train_sound_id := y }⟩ where
  self _ := rfl
  get_set _ _ := rfl
  fits x hx := by
    have hx : Unit.WF v x := hx
    exact fits_i32.2 hx.wwise_train_sound_id
  wf x hx y hy := by
    have hx : Unit.WF v x := hx
    exact { hx with wwise_train_sound_id := fits_i32.1 hy }
  splits x hx := by
    have hx : Unit.WF v x := hx
    refine ⟨fun i => .int 4 true i, .int _ _, ?_⟩
    show Splits _ (fun y => Unit.layout v { x with wwise_train_sound_id := y }) _
    simp only [Unit.layout_eq]
    walk Splits.here

theorem Unit.intField_wwise_damage_sound_id (v : Version) : IntField.OK (.record .Unit) v ⟨"wwise_damage_sound_id", 4, true, fun (x : Genie.Unit) => x.wwise_damage_sound_id, fun x y => { x with wwise_damage_sound_id := y }⟩ where
  self _ := rfl
  get_set _ _ := rfl
  fits x hx := by
    have hx : Unit.WF v x := hx
    exact fits_i32.2 hx.wwise_damage_sound_id
  wf x hx y hy := by
    have hx : Unit.WF v x := hx
    exact { hx with wwise_damage_sound_id := fits_i32.1 hy }
  splits x hx := by
    have hx : Unit.WF v x := hx
    refine ⟨fun i => .int 4 true i, .int _ _, ?_⟩
    show Splits _ (fun y => Unit.layout v { x with wwise_damage_sound_id := y }) _
    simp only [Unit.layout_eq]
    walk Splits.here

theorem Unit.intField_wwise_selection_sound_id (v : Version) : IntField.OK (.record .Unit) v ⟨"wwise_selection_sound_id", 4, true, fun (x : Genie.Unit) => x.wwise_selection_sound_id, fun x y => { x with wwise_selection_sound_id := y }⟩ where
  self _ := rfl
  get_set _ _ := rfl
  fits x hx := by
    have hx : Unit.WF v x := hx
    exact fits_i32.2 hx.wwise_selection_sound_id
  wf x hx y hy := by
    have hx : Unit.WF v x := hx
    exact { hx with wwise_selection_sound_id := fits_i32.1 hy }
  splits x hx := by
    have hx : Unit.WF v x := hx
    refine ⟨fun i => .int 4 true i, .int _ _, ?_⟩
    show Splits _ (fun y => Unit.layout v { x with wwise_selection_sound_id := y }) _
    simp only [Unit.layout_eq]
    walk Splits.here

theorem Unit.intField_wwise_dying_sound_id (v : Version) : IntField.OK (.record .Unit) v ⟨"wwise_dying_sound_id", 4, true, fun (x : Genie.Unit) => x.wwise_dying_sound_id, fun x y => { x with wwise_dying_sound_id := y }⟩ where
  self _ := rfl
  get_set _ _ := rfl
  fits x hx := by
    have hx : Unit.WF v x := hx
    exact fits_i32.2 hx.wwise_dying_sound_id
  wf x hx y hy := by
    have hx : Unit.WF v x := hx
    exact { hx with wwise_dying_sound_id := fits_i32.1 hy }
  splits x hx := by
    have hx : Unit.WF v x := hx
    refine ⟨fun i => .int 4 true i, .int _ _, ?_⟩
    show Splits _ (fun y => Unit.layout v { x with wwise_dying_sound_id := y }) _
    simp only [Unit.layout_eq]
    walk Splits.here

theorem Unit.intField_old_attack_reaction (v : Version) : IntField.OK (.record .Unit) v ⟨"old_attack_reaction", 1, false, fun (x : Genie.Unit) => x.old_attack_reaction, fun x y => { x with old_attack_reaction := y }⟩ where
  self _ := rfl
  get_set _ _ := rfl
  fits x hx := by
    have hx : Unit.WF v x := hx
    exact fits_u8.2 hx.old_attack_reaction
  wf x hx y hy := by
    have hx : Unit.WF v x := hx
    exact { hx with old_attack_reaction := fits_u8.1 hy }
  splits x hx := by
    have hx : Unit.WF v x := hx
    refine ⟨fun i => .int 1 false i, .int _ _, ?_⟩
    show Splits _ (fun y => Unit.layout v { x with old_attack_reaction := y }) _
    simp only [Unit.layout_eq]
    walk Splits.here

theorem Unit.intField_convert_terrain (v : Version) : IntField.OK (.record .Unit) v ⟨"convert_terrain", 1, false, fun (x : Genie.Unit) => x.convert_terrain, fun x y => { x with convert_terrain := y }⟩ where
  self _ := rfl
  get_set _ _ := rfl
  fits x hx := by
    have hx : Unit.WF v x := hx
    exact fits_u8.2 hx.convert_terrain
  wf x hx y hy := by
    have hx : Unit.WF v x := hx
    exact { hx with convert_terrain := fits_u8.1 hy }
  splits x hx := by
    have hx : Unit.WF v x := hx
    refine ⟨fun i => .int 1 false i, .int _ _, ?_⟩
    show Splits _ (fun y => Unit.layout v { x with convert_terrain := y }) _
    simp only [Unit.layout_eq]
    walk Splits.here

theorem Unit.intField_copy_id (v : Version) : IntField.OK (.record .Unit) v ⟨"copy_id", 2, true, fun (x : Genie.Unit) => x.copy_id, fun x y => { x with copy_id := y }⟩ where
  self _ := rfl
  get_set _ _ := rfl
  fits x hx := by
    have hx : Unit.WF v x := hx
    exact fits_i16.2 hx.copy_id
  wf x hx y hy := by
    have hx : Unit.WF v x := hx
    exact { hx with copy_id := fits_i16.1 hy }
  splits x hx := by
    have hx : Unit.WF v x := hx
    refine ⟨fun i => .int 2 true i, .int _ _, ?_⟩
    show Splits _ (fun y => Unit.layout v { x with copy_id := y }) _
    simp only [Unit.layout_eq]
    walk Splits.here

theorem Unit.intField_base_id (v : Version) : IntField.OK (.record .Unit) v ⟨"base_id", 2, true, fun (x : Genie.Unit) => x.base_id, fun x y => { x with base_id := y }⟩ where
  self _ := rfl
  get_set _ _ := rfl
  fits x hx := by
    have hx : Unit.WF v x := hx
    exact fits_i16.2 hx.base_id
  wf x hx y hy := by
    have hx : Unit.WF v x := hx
    exact { hx with base_id := fits_i16.1 hy }
  splits x hx := by
    have hx : Unit.WF v x := hx
    refine ⟨fun i => .int 2 true i, .int _ _, ?_⟩
    show Splits _ (fun y => Unit.layout v { x with base_id := y }) _
    simp only [Unit.layout_eq]
    walk Splits.here

theorem Unit.intFields (v : Version) : ∀ f ∈ Node.intFields v (.record .Unit), IntField.OK (.record .Unit) v f :=
  forall_cons (Unit.intField_id v) (forall_cons (Unit.intField_language_dll_name v) (forall_cons (Unit.intField_language_dll_creation v) (forall_cons (Unit.intField_class_ v) (forall_cons (Unit.intField_dying_graphic v) (forall_cons (Unit.intField_undead_graphic v) (forall_cons (Unit.intField_undead_mode v) (forall_cons (Unit.intField_hit_points v) (forall_cons (Unit.intField_garrison_capacity v) (forall_cons (Unit.intField_train_sound v) (forall_cons (Unit.intField_damage_sound v) (forall_cons (Unit.intField_dead_unit_id v) (forall_cons (Unit.intField_blood_unit_id v) (forall_cons (Unit.intField_sort_number v) (forall_cons (Unit.intField_can_be_built_on v) (forall_cons (Unit.intField_icon_id v) (forall_cons (Unit.intField_hide_in_editor v) (forall_cons (Unit.intField_old_portrait_pict v) (forall_cons (Unit.intField_enabled v) (forall_cons (Unit.intField_disabled v) (forall_cons (Unit.intField_hill_mode v) (forall_cons (Unit.intField_fog_visibility v) (forall_cons (Unit.intField_terrain_restriction v) (forall_cons (Unit.intField_fly_mode v) (forall_cons (Unit.intField_resource_capacity v) (forall_cons (Unit.intField_blast_defense_level v) (forall_cons (Unit.intField_combat_level v) (forall_cons (Unit.intField_interaction_mode v) (forall_cons (Unit.intField_minimap_mode v) (forall_cons (Unit.intField_interface_kind v) (forall_cons (Unit.intField_minimap_color v) (forall_cons (Unit.intField_language_dll_help v) (forall_cons (Unit.intField_language_dll_hotkey_text v) (forall_cons (Unit.intField_recyclable v) (forall_cons (Unit.intField_enable_auto_gather v) (forall_cons (Unit.intField_create_doppelganger_on_death v) (forall_cons (Unit.intField_resource_gather_group v) (forall_cons (Unit.intField_occlusion_mode v) (forall_cons (Unit.intField_obstruction_type v) (forall_cons (Unit.intField_obstruction_class v) (forall_cons (Unit.intField_trait v) (forall_cons (Unit.intField_civilization v) (forall_cons (Unit.intField_nothing v) (forall_cons (Unit.intField_selection_effect v) (forall_cons (Unit.intField_editor_selection_colour v) (forall_cons (Unit.intField_scenario_triggers_1 v) (forall_cons (Unit.intField_scenario_triggers_2 v) (forall_cons (Unit.intField_selection_sound v) (forall_cons (Unit.intField_dying_sound v) (forall_cons (Unit.intField_wwise_train_sound_id v) (forall_cons (Unit.intField_wwise_damage_sound_id v) (forall_cons (Unit.intField_wwise_selection_sound_id v) (forall_cons (Unit.intField_wwise_dying_sound_id v) (forall_cons (Unit.intField_old_attack_reaction v) (forall_cons (Unit.intField_convert_terrain v) (forall_cons (Unit.intField_copy_id v) (forall_cons (Unit.intField_base_id v) (forall_nil)))))))))))))))))))))))))))))))))))))))))))))))))))))))))

theorem Civ.intField_player_type (v : Version) : IntField.OK (.record .Civ) v ⟨"player_type", 1, false, fun (x : Genie.Civ) => x.player_type, fun x y => { x with player_type := y }⟩ where
  self _ := rfl
  get_set _ _ := rfl
  fits x hx := by
    have hx : Civ.WF v x := hx
    exact fits_u8.2 hx.player_type
  wf x hx y hy := by
    have hx : Civ.WF v x := hx
    exact { hx with player_type := fits_u8.1 hy }
  splits x hx := by
    have hx : Civ.WF v x := hx
    refine ⟨fun i => .int 1 false i, .int _ _, ?_⟩
    show Splits _ (fun y => Civ.layout v { x with player_type := y }) _
    simp only [Civ.layout]
    walk Splits.here

theorem Civ.intField_tech_tree_id (v : Version) : IntField.OK (.record .Civ) v ⟨"tech_tree_id", 2, true, fun (x : Genie.Civ) => x.tech_tree_id, fun x y => { x with tech_tree_id := y }⟩ where
  self _ := rfl
  get_set _ _ := rfl
  fits x hx := by
    have hx : Civ.WF v x := hx
    exact fits_i16.2 hx.tech_tree_id
  wf x hx y hy := by
    have hx : Civ.WF v x := hx
    exact { hx with tech_tree_id := fits_i16.1 hy }
  splits x hx := by
    have hx : Civ.WF v x := hx
    refine ⟨fun i => .int 2 true i, .int _ _, ?_⟩
    show Splits _ (fun y => Civ.layout v { x with tech_tree_id := y }) _
    simp only [Civ.layout]
    walk Splits.here

theorem Civ.intField_team_bonus_id (v : Version) : IntField.OK (.record .Civ) v ⟨"team_bonus_id", 2, true, fun (x : Genie.Civ) => x.team_bonus_id, fun x y => { x with team_bonus_id := y }⟩ where
  self _ := rfl
  get_set _ _ := rfl
  fits x hx := by
    have hx : Civ.WF v x := hx
    exact fits_i16.2 hx.team_bonus_id
  wf x hx y hy := by
    have hx : Civ.WF v x := hx
    exact { hx with team_bonus_id := fits_i16.1 hy }
  splits x hx := by
    have hx : Civ.WF v x := hx
    refine ⟨fun i => .int 2 true i, .int _ _, ?_⟩
    show Splits _ (fun y => Civ.layout v { x with team_bonus_id := y }) _
    simp only [Civ.layout]
    walk Splits.here

theorem Civ.intField_icon_set (v : Version) : IntField.OK (.record .Civ) v ⟨"icon_set", 1, false, fun (x : Genie.Civ) => x.icon_set, fun x y => { x with icon_set := y }⟩ where
  self _ := rfl
  get_set _ _ := rfl
  fits x hx := by
    have hx : Civ.WF v x := hx
    exact fits_u8.2 hx.icon_set
  wf x hx y hy := by
    have hx : Civ.WF v x := hx
    exact { hx with icon_set := fits_u8.1 hy }
  splits x hx := by
    have hx : Civ.WF v x := hx
    refine ⟨fun i => .int 1 false i, .int _ _, ?_⟩
    show Splits _ (fun y => Civ.layout v { x with icon_set := y }) _
    simp only [Civ.layout]
    walk Splits.here

theorem Civ.intFields (v : Version) : ∀ f ∈ Node.intFields v (.record .Civ), IntField.OK (.record .Civ) v f :=
  forall_cons (Civ.intField_player_type v) (forall_cons (Civ.intField_tech_tree_id v) (forall_cons (Civ.intField_team_bonus_id v) (forall_cons (Civ.intField_icon_set v) (forall_nil))))

theorem DatFile.intField_time_slice (v : Version) : IntField.OK .file v ⟨"time_slice", 4, true, fun (x : Genie.DatFile) => x.time_slice, fun x y => { x with time_slice := y }⟩ where
  self _ := rfl
  get_set _ _ := rfl
  fits x hx := by
    have hx : DatFile.WFAt v x := hx
    exact fits_i32.2 hx.time_slice
  wf x hx y hy := by
    have hx : DatFile.WFAt v x := hx
    exact { hx with time_slice := fits_i32.1 hy }
  splits x hx := by
    have hx : DatFile.WFAt v x := hx
    refine ⟨fun i => .int 4 true i, .int _ _, ?_⟩
    show Splits _ (fun y => DatFile.layoutAt v { x with time_slice := y }) _
    simp only [DatFile.layout_eq]
    walk Splits.here

theorem DatFile.intField_unit_kill_rate (v : Version) : IntField.OK .file v ⟨"unit_kill_rate", 4, true, fun (x : Genie.DatFile) => x.unit_kill_rate, fun x y => { x with unit_kill_rate := y }⟩ where
  self _ := rfl
  get_set _ _ := rfl
  fits x hx := by
    have hx : DatFile.WFAt v x := hx
    exact fits_i32.2 hx.unit_kill_rate
  wf x hx y hy := by
    have hx : DatFile.WFAt v x := hx
    exact { hx with unit_kill_rate := fits_i32.1 hy }
  splits x hx := by
    have hx : DatFile.WFAt v x := hx
    refine ⟨fun i => .int 4 true i, .int _ _, ?_⟩
    show Splits _ (fun y => DatFile.layoutAt v { x with unit_kill_rate := y }) _
    simp only [DatFile.layout_eq]
    walk Splits.here

theorem DatFile.intField_unit_kill_total (v : Version) : IntField.OK .file v ⟨"unit_kill_total", 4, true, fun (x : Genie.DatFile) => x.unit_kill_total, fun x y => { x with unit_kill_total := y }⟩ where
  self _ := rfl
  get_set _ _ := rfl
  fits x hx := by
    have hx : DatFile.WFAt v x := hx
    exact fits_i32.2 hx.unit_kill_total
  wf x hx y hy := by
    have hx : DatFile.WFAt v x := hx
    exact { hx with unit_kill_total := fits_i32.1 hy }
  splits x hx := by
    have hx : DatFile.WFAt v x := hx
    refine ⟨fun i => .int 4 true i, .int _ _, ?_⟩
    show Splits _ (fun y => DatFile.layoutAt v { x with unit_kill_total := y }) _
    simp only [DatFile.layout_eq]
    walk Splits.here

theorem DatFile.intField_unit_hit_point_rate (v : Version) : IntField.OK .file v ⟨"unit_hit_point_rate", 4, true, fun (x : Genie.DatFile) => x.unit_hit_point_rate, fun x y => { x with unit_hit_point_rate := y }⟩ where
  self _ := rfl
  get_set _ _ := rfl
  fits x hx := by
    have hx : DatFile.WFAt v x := hx
    exact fits_i32.2 hx.unit_hit_point_rate
  wf x hx y hy := by
    have hx : DatFile.WFAt v x := hx
    exact { hx with unit_hit_point_rate := fits_i32.1 hy }
  splits x hx := by
    have hx : DatFile.WFAt v x := hx
    refine ⟨fun i => .int 4 true i, .int _ _, ?_⟩
    show Splits _ (fun y => DatFile.layoutAt v { x with unit_hit_point_rate := y }) _
    simp only [DatFile.layout_eq]
    walk Splits.here

theorem DatFile.intField_unit_hit_point_total (v : Version) : IntField.OK .file v ⟨"unit_hit_point_total", 4, true, fun (x : Genie.DatFile) => x.unit_hit_point_total, fun x y => { x with unit_hit_point_total := y }⟩ where
  self _ := rfl
  get_set _ _ := rfl
  fits x hx := by
    have hx : DatFile.WFAt v x := hx
    exact fits_i32.2 hx.unit_hit_point_total
  wf x hx y hy := by
    have hx : DatFile.WFAt v x := hx
    exact { hx with unit_hit_point_total := fits_i32.1 hy }
  splits x hx := by
    have hx : DatFile.WFAt v x := hx
    refine ⟨fun i => .int 4 true i, .int _ _, ?_⟩
    show Splits _ (fun y => DatFile.layoutAt v { x with unit_hit_point_total := y }) _
    simp only [DatFile.layout_eq]
    walk Splits.here

theorem DatFile.intField_razing_kill_rate (v : Version) : IntField.OK .file v ⟨"razing_kill_rate", 4, true, fun (x : Genie.DatFile) => x.razing_kill_rate, fun x y => { x with razing_kill_rate := y }⟩ where
  self _ := rfl
  get_set _ _ := rfl
  fits x hx := by
    have hx : DatFile.WFAt v x := hx
    exact fits_i32.2 hx.razing_kill_rate
  wf x hx y hy := by
    have hx : DatFile.WFAt v x := hx
    exact { hx with razing_kill_rate := fits_i32.1 hy }
  splits x hx := by
    have hx : DatFile.WFAt v x := hx
    refine ⟨fun i => .int 4 true i, .int _ _, ?_⟩
    show Splits _ (fun y => DatFile.layoutAt v { x with razing_kill_rate := y }) _
    simp only [DatFile.layout_eq]
    walk Splits.here

theorem DatFile.intField_razing_kill_total (v : Version) : IntField.OK .file v ⟨"razing_kill_total", 4, true, fun (x : Genie.DatFile) => x.razing_kill_total, fun x y => { x with razing_kill_total := y }⟩ where
  self _ := rfl
  get_set _ _ := rfl
  fits x hx := by
    have hx : DatFile.WFAt v x := hx
    exact fits_i32.2 hx.razing_kill_total
  wf x hx y hy := by
    have hx : DatFile.WFAt v x := hx
    exact { hx with razing_kill_total := fits_i32.1 hy }
  splits x hx := by
    have hx : DatFile.WFAt v x := hx
    refine ⟨fun i => .int 4 true i, .int _ _, ?_⟩
    show Splits _ (fun y => DatFile.layoutAt v { x with razing_kill_total := y }) _
    simp only [DatFile.layout_eq]
    walk Splits.here

theorem DatFile.intFields (v : Version) : ∀ f ∈ Node.intFields v .file, IntField.OK .file v f :=
  forall_cons (DatFile.intField_time_slice v) (forall_cons (DatFile.intField_unit_kill_rate v) (forall_cons (DatFile.intField_unit_kill_total v) (forall_cons (DatFile.intField_unit_hit_point_rate v) (forall_cons (DatFile.intField_unit_hit_point_total v) (forall_cons (DatFile.intField_razing_kill_rate v) (forall_cons (DatFile.intField_razing_kill_total v) (forall_nil)))))))

theorem Node.intFields_ok (v : Version) (n : Node) : ∀ f ∈ n.intFields v, IntField.OK n v f := by
  match n with
  | .record .EffectCommand => exact EffectCommand.intFields v
  | .record .SoundItem => exact SoundItem.intFields v
  | .record .Sound => exact Sound.intFields v
  | .record .PlayerColour => exact PlayerColour.intFields v
  | .record .GraphicDelta => exact GraphicDelta.intFields v
  | .record .GraphicAngleSound => exact GraphicAngleSound.intFields v
  | .record .Graphic => exact Graphic.intFields v
  | .record .TerrainPassGraphic => exact TerrainPassGraphic.intFields v
  | .record .FrameData => exact FrameData.intFields v
  | .record .Terrain => exact Terrain.intFields v
  | .record .TileSize => exact TileSize.intFields v
  | .record .TerrainBlock => exact TerrainBlock.intFields v
  | .record .MapUnit => exact MapUnit.intFields v
  | .record .MapTerrain => exact MapTerrain.intFields v
  | .record .MapLand => exact MapLand.intFields v
  | .record .MapElevation => exact MapElevation.intFields v
  | .record .MapInfo => exact MapInfo.intFields v
  | .record .RandomMaps => exact RandomMaps.intFields v
  | .record .ResearchResourceCost => exact ResearchResourceCost.intFields v
  | .record .ResearchLocation => exact ResearchLocation.intFields v
  | .record .Tech => exact Tech.intFields v
  | .record .Common => exact Common.intFields v
  | .record .TechTreeAge => exact TechTreeAge.intFields v
  | .record .BuildingConnection => exact BuildingConnection.intFields v
  | .record .UnitConnection => exact UnitConnection.intFields v
  | .record .ResearchConnection => exact ResearchConnection.intFields v
  | .record .TechTree => exact TechTree.intFields v
  | .record .ResourceStorage => exact ResourceStorage.intFields v
  | .record .DamageGraphic => exact DamageGraphic.intFields v
  | .record .DeadFish => exact DeadFish.intFields v
  | .record .Task => exact Task.intFields v
  | .record .Bird => exact Bird.intFields v
  | .record .AttackOrArmor => exact AttackOrArmor.intFields v
  | .record .Type50 => exact Type50.intFields v
  | .record .Projectile => exact Projectile.intFields v
  | .record .ResourceCost => exact ResourceCost.intFields v
  | .record .TrainLocation => exact TrainLocation.intFields v
  | .record .Creatable => exact Creatable.intFields v
  | .record .BuildingAnnex => exact BuildingAnnex.intFields v
  | .record .Building => exact Building.intFields v
  | .record .Unit => exact Unit.intFields v
  | .record .Civ => exact Civ.intFields v
  | .file => exact DatFile.intFields v
  | .record .Effect => exact forall_nil
  | .record .UnitHeaders => exact forall_nil
  | .record (.TerrainRestriction k) => exact forall_nil

end Genie
