import Verif.Proof.Edits.FieldDefs
/-! # Float fields (generated by `tools/gen_edit_fields.py`) -/

namespace Genie
open Layout
set_option linter.unusedVariables false
set_option linter.unusedSimpArgs false

theorem EffectCommand.floatField_d (v : Version) : FloatField.OK (.record .EffectCommand) v ⟨"d", fun (x : Genie.EffectCommand) => some x.d, fun x y => { x with d := y }⟩ where
  self x y h := by cases h; rfl
  get_set _ _ := rfl
  fits x hx y hy := by
    cases hy
    have hx : EffectCommand.WF v x := hx
    exact hx.d
  wf x hx _ _ y hy := by
    have hx : EffectCommand.WF v x := hx
    exact { hx with d := hy }
  splits x hx _ _ := by
    have hx : EffectCommand.WF v x := hx
    refine ⟨fun i => .float i, .float, ?_⟩
    show Splits _ (fun y => EffectCommand.layout v { x with d := y }) _
    simp only [EffectCommand.layout]
    walk Splits.here

theorem EffectCommand.floatFields (v : Version) : ∀ f ∈ Node.floatFields v (.record .EffectCommand), FloatField.OK (.record .EffectCommand) v f :=
  forall_cons (EffectCommand.floatField_d v) (forall_nil)

theorem Graphic.floatField_speed_multiplier (v : Version) : FloatField.OK (.record .Graphic) v ⟨"speed_multiplier", fun (x : Genie.Graphic) => some x.speed_multiplier, fun x y => { x with speed_multiplier := y }⟩ where
  self x y h := by cases h; rfl
  get_set _ _ := rfl
  fits x hx y hy := by
    cases hy
    have hx : Graphic.WF v x := hx
    exact hx.speed_multiplier
  wf x hx _ _ y hy := by
    have hx : Graphic.WF v x := hx
    exact { hx with speed_multiplier := hy }
  splits x hx _ _ := by
    have hx : Graphic.WF v x := hx
    refine ⟨fun i => .float i, .float, ?_⟩
    show Splits _ (fun y => Graphic.layout v { x with speed_multiplier := y }) _
    simp only [Graphic.layout]
    walk Splits.here

theorem Graphic.floatField_frame_duration (v : Version) : FloatField.OK (.record .Graphic) v ⟨"frame_duration", fun (x : Genie.Graphic) => some x.frame_duration, fun x y => { x with frame_duration := y }⟩ where
  self x y h := by cases h; rfl
  get_set _ _ := rfl
  fits x hx y hy := by
    cases hy
    have hx : Graphic.WF v x := hx
    exact hx.frame_duration
  wf x hx _ _ y hy := by
    have hx : Graphic.WF v x := hx
    exact { hx with frame_duration := hy }
  splits x hx _ _ := by
    have hx : Graphic.WF v x := hx
    refine ⟨fun i => .float i, .float, ?_⟩
    show Splits _ (fun y => Graphic.layout v { x with frame_duration := y }) _
    simp only [Graphic.layout]
    walk Splits.here

theorem Graphic.floatField_replay_delay (v : Version) : FloatField.OK (.record .Graphic) v ⟨"replay_delay", fun (x : Genie.Graphic) => some x.replay_delay, fun x y => { x with replay_delay := y }⟩ where
  self x y h := by cases h; rfl
  get_set _ _ := rfl
  fits x hx y hy := by
    cases hy
    have hx : Graphic.WF v x := hx
    exact hx.replay_delay
  wf x hx _ _ y hy := by
    have hx : Graphic.WF v x := hx
    exact { hx with replay_delay := hy }
  splits x hx _ _ := by
    have hx : Graphic.WF v x := hx
    refine ⟨fun i => .float i, .float, ?_⟩
    show Splits _ (fun y => Graphic.layout v { x with replay_delay := y }) _
    simp only [Graphic.layout]
    walk Splits.here

theorem Graphic.floatFields (v : Version) : ∀ f ∈ Node.floatFields v (.record .Graphic), FloatField.OK (.record .Graphic) v f :=
  forall_cons (Graphic.floatField_speed_multiplier v) (forall_cons (Graphic.floatField_frame_duration v) (forall_cons (Graphic.floatField_replay_delay v) (forall_nil)))

theorem Terrain.floatField_interval (v : Version) : FloatField.OK (.record .Terrain) v ⟨"interval", fun (x : Genie.Terrain) => some x.interval, fun x y => { x with interval := y }⟩ where
  self x y h := by cases h; rfl
  get_set _ _ := rfl
  fits x hx y hy := by
    cases hy
    have hx : Terrain.WF v x := hx
    exact hx.interval
  wf x hx _ _ y hy := by
    have hx : Terrain.WF v x := hx
    exact { hx with interval := hy }
  splits x hx _ _ := by
    have hx : Terrain.WF v x := hx
    refine ⟨fun i => .float i, .float, ?_⟩
    show Splits _ (fun y => Terrain.layout v { x with interval := y }) _
    simp only [Terrain.layout]
    walk Splits.here

theorem Terrain.floatField_pause_between_loops (v : Version) : FloatField.OK (.record .Terrain) v ⟨"pause_between_loops", fun (x : Genie.Terrain) => some x.pause_between_loops, fun x y => { x with pause_between_loops := y }⟩ where
  self x y h := by cases h; rfl
  get_set _ _ := rfl
  fits x hx y hy := by
    cases hy
    have hx : Terrain.WF v x := hx
    exact hx.pause_between_loops
  wf x hx _ _ y hy := by
    have hx : Terrain.WF v x := hx
    exact { hx with pause_between_loops := hy }
  splits x hx _ _ := by
    have hx : Terrain.WF v x := hx
    refine ⟨fun i => .float i, .float, ?_⟩
    show Splits _ (fun y => Terrain.layout v { x with pause_between_loops := y }) _
    simp only [Terrain.layout]
    walk Splits.here

theorem Terrain.floatField_animate_last (v : Version) : FloatField.OK (.record .Terrain) v ⟨"animate_last", fun (x : Genie.Terrain) => some x.animate_last, fun x y => { x with animate_last := y }⟩ where
  self x y h := by cases h; rfl
  get_set _ _ := rfl
  fits x hx y hy := by
    cases hy
    have hx : Terrain.WF v x := hx
    exact hx.animate_last
  wf x hx _ _ y hy := by
    have hx : Terrain.WF v x := hx
    exact { hx with animate_last := hy }
  splits x hx _ _ := by
    have hx : Terrain.WF v x := hx
    refine ⟨fun i => .float i, .float, ?_⟩
    show Splits _ (fun y => Terrain.layout v { x with animate_last := y }) _
    simp only [Terrain.layout]
    walk Splits.here

theorem Terrain.floatFields (v : Version) : ∀ f ∈ Node.floatFields v (.record .Terrain), FloatField.OK (.record .Terrain) v f :=
  forall_cons (Terrain.floatField_interval v) (forall_cons (Terrain.floatField_pause_between_loops v) (forall_cons (Terrain.floatField_animate_last v) (forall_nil)))

theorem TerrainBlock.floatField_map_min_x (v : Version) : FloatField.OK (.record .TerrainBlock) v ⟨"map_min_x", fun (x : Genie.TerrainBlock) => some x.map_min_x, fun x y => { x with map_min_x := y }⟩ where
  self x y h := by cases h; rfl
  get_set _ _ := rfl
  fits x hx y hy := by
    cases hy
    have hx : TerrainBlock.WF v x := hx
    exact hx.map_min_x
  wf x hx _ _ y hy := by
    have hx : TerrainBlock.WF v x := hx
    exact { hx with map_min_x := hy }
  splits x hx _ _ := by
    have hx : TerrainBlock.WF v x := hx
    refine ⟨fun i => .float i, .float, ?_⟩
    show Splits _ (fun y => TerrainBlock.layout v { x with map_min_x := y }) _
    simp only [TerrainBlock.layout]
    walk Splits.here

theorem TerrainBlock.floatField_map_min_y (v : Version) : FloatField.OK (.record .TerrainBlock) v ⟨"map_min_y", fun (x : Genie.TerrainBlock) => some x.map_min_y, fun x y => { x with map_min_y := y }⟩ where
  self x y h := by cases h; rfl
  get_set _ _ := rfl
  fits x hx y hy := by
    cases hy
    have hx : TerrainBlock.WF v x := hx
    exact hx.map_min_y
  wf x hx _ _ y hy := by
    have hx : TerrainBlock.WF v x := hx
    exact { hx with map_min_y := hy }
  splits x hx _ _ := by
    have hx : TerrainBlock.WF v x := hx
    refine ⟨fun i => .float i, .float, ?_⟩
    show Splits _ (fun y => TerrainBlock.layout v { x with map_min_y := y }) _
    simp only [TerrainBlock.layout]
    walk Splits.here

theorem TerrainBlock.floatField_map_max_x (v : Version) : FloatField.OK (.record .TerrainBlock) v ⟨"map_max_x", fun (x : Genie.TerrainBlock) => some x.map_max_x, fun x y => { x with map_max_x := y }⟩ where
  self x y h := by cases h; rfl
  get_set _ _ := rfl
  fits x hx y hy := by
    cases hy
    have hx : TerrainBlock.WF v x := hx
    exact hx.map_max_x
  wf x hx _ _ y hy := by
    have hx : TerrainBlock.WF v x := hx
    exact { hx with map_max_x := hy }
  splits x hx _ _ := by
    have hx : TerrainBlock.WF v x := hx
    refine ⟨fun i => .float i, .float, ?_⟩
    show Splits _ (fun y => TerrainBlock.layout v { x with map_max_x := y }) _
    simp only [TerrainBlock.layout]
    walk Splits.here

theorem TerrainBlock.floatField_map_max_y (v : Version) : FloatField.OK (.record .TerrainBlock) v ⟨"map_max_y", fun (x : Genie.TerrainBlock) => some x.map_max_y, fun x y => { x with map_max_y := y }⟩ where
  self x y h := by cases h; rfl
  get_set _ _ := rfl
  fits x hx y hy := by
    cases hy
    have hx : TerrainBlock.WF v x := hx
    exact hx.map_max_y
  wf x hx _ _ y hy := by
    have hx : TerrainBlock.WF v x := hx
    exact { hx with map_max_y := hy }
  splits x hx _ _ := by
    have hx : TerrainBlock.WF v x := hx
    refine ⟨fun i => .float i, .float, ?_⟩
    show Splits _ (fun y => TerrainBlock.layout v { x with map_max_y := y }) _
    simp only [TerrainBlock.layout]
    walk Splits.here

theorem TerrainBlock.floatField_map_max_x_plus_1 (v : Version) : FloatField.OK (.record .TerrainBlock) v ⟨"map_max_x_plus_1", fun (x : Genie.TerrainBlock) => some x.map_max_x_plus_1, fun x y => { x with map_max_x_plus_1 := y }⟩ where
  self x y h := by cases h; rfl
  get_set _ _ := rfl
  fits x hx y hy := by
    cases hy
    have hx : TerrainBlock.WF v x := hx
    exact hx.map_max_x_plus_1
  wf x hx _ _ y hy := by
    have hx : TerrainBlock.WF v x := hx
    exact { hx with map_max_x_plus_1 := hy }
  splits x hx _ _ := by
    have hx : TerrainBlock.WF v x := hx
    refine ⟨fun i => .float i, .float, ?_⟩
    show Splits _ (fun y => TerrainBlock.layout v { x with map_max_x_plus_1 := y }) _
    simp only [TerrainBlock.layout]
    walk Splits.here

theorem TerrainBlock.floatField_map_max_y_plus_1 (v : Version) : FloatField.OK (.record .TerrainBlock) v ⟨"map_max_y_plus_1", fun (x : Genie.TerrainBlock) => some x.map_max_y_plus_1, fun x y => { x with map_max_y_plus_1 := y }⟩ where
  self x y h := by cases h; rfl
  get_set _ _ := rfl
  fits x hx y hy := by
    cases hy
    have hx : TerrainBlock.WF v x := hx
    exact hx.map_max_y_plus_1
  wf x hx _ _ y hy := by
    have hx : TerrainBlock.WF v x := hx
    exact { hx with map_max_y_plus_1 := hy }
  splits x hx _ _ := by
    have hx : TerrainBlock.WF v x := hx
    refine ⟨fun i => .float i, .float, ?_⟩
    show Splits _ (fun y => TerrainBlock.layout v { x with map_max_y_plus_1 := y }) _
    simp only [TerrainBlock.layout]
    walk Splits.here

theorem TerrainBlock.floatFields (v : Version) : ∀ f ∈ Node.floatFields v (.record .TerrainBlock), FloatField.OK (.record .TerrainBlock) v f :=
  forall_cons (TerrainBlock.floatField_map_min_x v) (forall_cons (TerrainBlock.floatField_map_min_y v) (forall_cons (TerrainBlock.floatField_map_max_x v) (forall_cons (TerrainBlock.floatField_map_max_y v) (forall_cons (TerrainBlock.floatField_map_max_x_plus_1 v) (forall_cons (TerrainBlock.floatField_map_max_y_plus_1 v) (forall_nil))))))

theorem ResourceStorage.floatField_amount (v : Version) : FloatField.OK (.record .ResourceStorage) v ⟨"amount", fun (x : Genie.ResourceStorage) => some x.amount, fun x y => { x with amount := y }⟩ where
  self x y h := by cases h; rfl
  get_set _ _ := rfl
  fits x hx y hy := by
    cases hy
    have hx : ResourceStorage.WF v x := hx
    exact hx.amount
  wf x hx _ _ y hy := by
    have hx : ResourceStorage.WF v x := hx
    exact { hx with amount := hy }
  splits x hx _ _ := by
    have hx : ResourceStorage.WF v x := hx
    refine ⟨fun i => .packed .f (.float i), .f, ?_⟩
    show Splits _ (fun y => ResourceStorage.layout v { x with amount := y }) _
    simp only [ResourceStorage.layout_flat]
    walk Splits.here

theorem ResourceStorage.floatFields (v : Version) : ∀ f ∈ Node.floatFields v (.record .ResourceStorage), FloatField.OK (.record .ResourceStorage) v f :=
  forall_cons (ResourceStorage.floatField_amount v) (forall_nil)

theorem DeadFish.floatField_rotation_speed (v : Version) : FloatField.OK (.record .DeadFish) v ⟨"rotation_speed", fun (x : Genie.DeadFish) => some x.rotation_speed, fun x y => { x with rotation_speed := y }⟩ where
  self x y h := by cases h; rfl
  get_set _ _ := rfl
  fits x hx y hy := by
    cases hy
    have hx : DeadFish.WF v x := hx
    exact hx.rotation_speed
  wf x hx _ _ y hy := by
    have hx : DeadFish.WF v x := hx
    exact { hx with rotation_speed := hy }
  splits x hx _ _ := by
    have hx : DeadFish.WF v x := hx
    refine ⟨fun i => .packed .f (.float i), .f, ?_⟩
    show Splits _ (fun y => DeadFish.layout v { x with rotation_speed := y }) _
    simp only [DeadFish.layout_flat]
    walk Splits.here

theorem DeadFish.floatField_tracking_unit_density (v : Version) : FloatField.OK (.record .DeadFish) v ⟨"tracking_unit_density", fun (x : Genie.DeadFish) => some x.tracking_unit_density, fun x y => { x with tracking_unit_density := y }⟩ where
  self x y h := by cases h; rfl
  get_set _ _ := rfl
  fits x hx y hy := by
    cases hy
    have hx : DeadFish.WF v x := hx
    exact hx.tracking_unit_density
  wf x hx _ _ y hy := by
    have hx : DeadFish.WF v x := hx
    exact { hx with tracking_unit_density := hy }
  splits x hx _ _ := by
    have hx : DeadFish.WF v x := hx
    refine ⟨fun i => .packed .f (.float i), .f, ?_⟩
    show Splits _ (fun y => DeadFish.layout v { x with tracking_unit_density := y }) _
    simp only [DeadFish.layout_flat]
    walk Splits.here

theorem DeadFish.floatField_turn_radius (v : Version) : FloatField.OK (.record .DeadFish) v ⟨"turn_radius", fun (x : Genie.DeadFish) => some x.turn_radius, fun x y => { x with turn_radius := y }⟩ where
  self x y h := by cases h; rfl
  get_set _ _ := rfl
  fits x hx y hy := by
    cases hy
    have hx : DeadFish.WF v x := hx
    exact hx.turn_radius
  wf x hx _ _ y hy := by
    have hx : DeadFish.WF v x := hx
    exact { hx with turn_radius := hy }
  splits x hx _ _ := by
    have hx : DeadFish.WF v x := hx
    refine ⟨fun i => .packed .f (.float i), .f, ?_⟩
    show Splits _ (fun y => DeadFish.layout v { x with turn_radius := y }) _
    simp only [DeadFish.layout_flat]
    walk Splits.here

theorem DeadFish.floatField_turn_radius_speed (v : Version) : FloatField.OK (.record .DeadFish) v ⟨"turn_radius_speed", fun (x : Genie.DeadFish) => some x.turn_radius_speed, fun x y => { x with turn_radius_speed := y }⟩ where
  self x y h := by cases h; rfl
  get_set _ _ := rfl
  fits x hx y hy := by
    cases hy
    have hx : DeadFish.WF v x := hx
    exact hx.turn_radius_speed
  wf x hx _ _ y hy := by
    have hx : DeadFish.WF v x := hx
    exact { hx with turn_radius_speed := hy }
  splits x hx _ _ := by
    have hx : DeadFish.WF v x := hx
    refine ⟨fun i => .packed .f (.float i), .f, ?_⟩
    show Splits _ (fun y => DeadFish.layout v { x with turn_radius_speed := y }) _
    simp only [DeadFish.layout_flat]
    walk Splits.here

theorem DeadFish.floatField_max_yaw_per_second_moving (v : Version) : FloatField.OK (.record .DeadFish) v ⟨"max_yaw_per_second_moving", fun (x : Genie.DeadFish) => some x.max_yaw_per_second_moving, fun x y => { x with max_yaw_per_second_moving := y }⟩ where
  self x y h := by cases h; rfl
  get_set _ _ := rfl
  fits x hx y hy := by
    cases hy
    have hx : DeadFish.WF v x := hx
    exact hx.max_yaw_per_second_moving
  wf x hx _ _ y hy := by
    have hx : DeadFish.WF v x := hx
    exact { hx with max_yaw_per_second_moving := hy }
  splits x hx _ _ := by
    have hx : DeadFish.WF v x := hx
    refine ⟨fun i => .packed .f (.float i), .f, ?_⟩
    show Splits _ (fun y => DeadFish.layout v { x with max_yaw_per_second_moving := y }) _
    simp only [DeadFish.layout_flat]
    walk Splits.here

theorem DeadFish.floatField_stationary_yaw_revolution_time (v : Version) : FloatField.OK (.record .DeadFish) v ⟨"stationary_yaw_revolution_time", fun (x : Genie.DeadFish) => some x.stationary_yaw_revolution_time, fun x y => { x with stationary_yaw_revolution_time := y }⟩ where
  self x y h := by cases h; rfl
  get_set _ _ := rfl
  fits x hx y hy := by
    cases hy
    have hx : DeadFish.WF v x := hx
    exact hx.stationary_yaw_revolution_time
  wf x hx _ _ y hy := by
    have hx : DeadFish.WF v x := hx
    exact { hx with stationary_yaw_revolution_time := hy }
  splits x hx _ _ := by
    have hx : DeadFish.WF v x := hx
    refine ⟨fun i => .packed .f (.float i), .f, ?_⟩
    show Splits _ (fun y => DeadFish.layout v { x with stationary_yaw_revolution_time := y }) _
    simp only [DeadFish.layout_flat]
    walk Splits.here

theorem DeadFish.floatField_max_yaw_per_second_stationary (v : Version) : FloatField.OK (.record .DeadFish) v ⟨"max_yaw_per_second_stationary", fun (x : Genie.DeadFish) => some x.max_yaw_per_second_stationary, fun x y => { x with max_yaw_per_second_stationary := y }⟩ where
  self x y h := by cases h; rfl
  get_set _ _ := rfl
  fits x hx y hy := by
    cases hy
    have hx : DeadFish.WF v x := hx
    exact hx.max_yaw_per_second_stationary
  wf x hx _ _ y hy := by
    have hx : DeadFish.WF v x := hx
    exact { hx with max_yaw_per_second_stationary := hy }
  splits x hx _ _ := by
    have hx : DeadFish.WF v x := hx
    refine ⟨fun i => .packed .f (.float i), .f, ?_⟩
    show Splits _ (fun y => DeadFish.layout v { x with max_yaw_per_second_stationary := y }) _
    simp only [DeadFish.layout_flat]
    walk Splits.here

theorem DeadFish.floatField_min_collision_size_multiplier (v : Version) : FloatField.OK (.record .DeadFish) v ⟨"min_collision_size_multiplier", fun (x : Genie.DeadFish) => some x.min_collision_size_multiplier, fun x y => { x with min_collision_size_multiplier := y }⟩ where
  self x y h := by cases h; rfl
  get_set _ _ := rfl
  fits x hx y hy := by
    cases hy
    have hx : DeadFish.WF v x := hx
    exact hx.min_collision_size_multiplier
  wf x hx _ _ y hy := by
    have hx : DeadFish.WF v x := hx
    exact { hx with min_collision_size_multiplier := hy }
  splits x hx _ _ := by
    have hx : DeadFish.WF v x := hx
    refine ⟨fun i => .packed .f (.float i), .f, ?_⟩
    show Splits _ (fun y => DeadFish.layout v { x with min_collision_size_multiplier := y }) _
    simp only [DeadFish.layout_flat]
    walk Splits.here

theorem DeadFish.floatFields (v : Version) : ∀ f ∈ Node.floatFields v (.record .DeadFish), FloatField.OK (.record .DeadFish) v f :=
  forall_cons (DeadFish.floatField_rotation_speed v) (forall_cons (DeadFish.floatField_tracking_unit_density v) (forall_cons (DeadFish.floatField_turn_radius v) (forall_cons (DeadFish.floatField_turn_radius_speed v) (forall_cons (DeadFish.floatField_max_yaw_per_second_moving v) (forall_cons (DeadFish.floatField_stationary_yaw_revolution_time v) (forall_cons (DeadFish.floatField_max_yaw_per_second_stationary v) (forall_cons (DeadFish.floatField_min_collision_size_multiplier v) (forall_nil))))))))

theorem Task.floatField_work_value_1 (v : Version) : FloatField.OK (.record .Task) v ⟨"work_value_1", fun (x : Genie.Task) => some x.work_value_1, fun x y => { x with work_value_1 := y }⟩ where
  self x y h := by cases h; rfl
  get_set _ _ := rfl
  fits x hx y hy := by
    cases hy
    have hx : Task.WF v x := hx
    exact hx.work_value_1
  wf x hx _ _ y hy := by
    have hx : Task.WF v x := hx
    exact { hx with work_value_1 := hy }
  splits x hx _ _ := by
    have hx : Task.WF v x := hx
    refine ⟨fun i => .packed .f (.float i), .f, ?_⟩
    show Splits _ (fun y => Task.layout v { x with work_value_1 := y }) _
    by_cases hv : 88 ≤ v.num
    · simp only [Task.layout_flat88 v _ hv]
      walk Splits.here
    · simp only [Task.layout_flat84 v _ hv]
      walk Splits.here

theorem Task.floatField_work_value_2 (v : Version) : FloatField.OK (.record .Task) v ⟨"work_value_2", fun (x : Genie.Task) => some x.work_value_2, fun x y => { x with work_value_2 := y }⟩ where
  self x y h := by cases h; rfl
  get_set _ _ := rfl
  fits x hx y hy := by
    cases hy
    have hx : Task.WF v x := hx
    exact hx.work_value_2
  wf x hx _ _ y hy := by
    have hx : Task.WF v x := hx
    exact { hx with work_value_2 := hy }
  splits x hx _ _ := by
    have hx : Task.WF v x := hx
    refine ⟨fun i => .packed .f (.float i), .f, ?_⟩
    show Splits _ (fun y => Task.layout v { x with work_value_2 := y }) _
    by_cases hv : 88 ≤ v.num
    · simp only [Task.layout_flat88 v _ hv]
      walk Splits.here
    · simp only [Task.layout_flat84 v _ hv]
      walk Splits.here

theorem Task.floatField_work_range (v : Version) : FloatField.OK (.record .Task) v ⟨"work_range", fun (x : Genie.Task) => some x.work_range, fun x y => { x with work_range := y }⟩ where
  self x y h := by cases h; rfl
  get_set _ _ := rfl
  fits x hx y hy := by
    cases hy
    have hx : Task.WF v x := hx
    exact hx.work_range
  wf x hx _ _ y hy := by
    have hx : Task.WF v x := hx
    exact { hx with work_range := hy }
  splits x hx _ _ := by
    have hx : Task.WF v x := hx
    refine ⟨fun i => .packed .f (.float i), .f, ?_⟩
    show Splits _ (fun y => Task.layout v { x with work_range := y }) _
    by_cases hv : 88 ≤ v.num
    · simp only [Task.layout_flat88 v _ hv]
      walk Splits.here
    · simp only [Task.layout_flat84 v _ hv]
      walk Splits.here

theorem Task.floatField_search_wait_time (v : Version) : FloatField.OK (.record .Task) v ⟨"search_wait_time", fun (x : Genie.Task) => some x.search_wait_time, fun x y => { x with search_wait_time := y }⟩ where
  self x y h := by cases h; rfl
  get_set _ _ := rfl
  fits x hx y hy := by
    cases hy
    have hx : Task.WF v x := hx
    exact hx.search_wait_time
  wf x hx _ _ y hy := by
    have hx : Task.WF v x := hx
    exact { hx with search_wait_time := hy }
  splits x hx _ _ := by
    have hx : Task.WF v x := hx
    refine ⟨fun i => .packed .f (.float i), .f, ?_⟩
    show Splits _ (fun y => Task.layout v { x with search_wait_time := y }) _
    by_cases hv : 88 ≤ v.num
    · simp only [Task.layout_flat88 v _ hv]
      walk Splits.here
    · simp only [Task.layout_flat84 v _ hv]
      walk Splits.here

theorem Task.floatFields (v : Version) : ∀ f ∈ Node.floatFields v (.record .Task), FloatField.OK (.record .Task) v f :=
  forall_cons (Task.floatField_work_value_1 v) (forall_cons (Task.floatField_work_value_2 v) (forall_cons (Task.floatField_work_range v) (forall_cons (Task.floatField_search_wait_time v) (forall_nil))))

theorem Bird.floatField_search_radius (v : Version) : FloatField.OK (.record .Bird) v ⟨"search_radius", fun (x : Genie.Bird) => some x.search_radius, fun x y => { x with search_radius := y }⟩ where
  self x y h := by cases h; rfl
  get_set _ _ := rfl
  fits x hx y hy := by
    cases hy
    have hx : Bird.WF v x := hx
    exact hx.search_radius
  wf x hx _ _ y hy := by
    have hx : Bird.WF v x := hx
    exact { hx with search_radius := hy }
  splits x hx _ _ := by
    have hx : Bird.WF v x := hx
    refine ⟨fun i => .float i, .float, ?_⟩
    show Splits _ (fun y => Bird.layout v { x with search_radius := y }) _
    simp only [Bird.layout]
    walk Splits.here

theorem Bird.floatField_work_rate (v : Version) : FloatField.OK (.record .Bird) v ⟨"work_rate", fun (x : Genie.Bird) => some x.work_rate, fun x y => { x with work_rate := y }⟩ where
  self x y h := by cases h; rfl
  get_set _ _ := rfl
  fits x hx y hy := by
    cases hy
    have hx : Bird.WF v x := hx
    exact hx.work_rate
  wf x hx _ _ y hy := by
    have hx : Bird.WF v x := hx
    exact { hx with work_rate := hy }
  splits x hx _ _ := by
    have hx : Bird.WF v x := hx
    refine ⟨fun i => .float i, .float, ?_⟩
    show Splits _ (fun y => Bird.layout v { x with work_rate := y }) _
    simp only [Bird.layout]
    walk Splits.here

theorem Bird.floatFields (v : Version) : ∀ f ∈ Node.floatFields v (.record .Bird), FloatField.OK (.record .Bird) v f :=
  forall_cons (Bird.floatField_search_radius v) (forall_cons (Bird.floatField_work_rate v) (forall_nil))

theorem Type50.floatField_bonus_damage_resistance (v : Version) : FloatField.OK (.record .Type50) v ⟨"bonus_damage_resistance", fun (x : Genie.Type50) => some x.bonus_damage_resistance, fun x y => { x with bonus_damage_resistance := y }⟩ where
  self x y h := by cases h; rfl
  get_set _ _ := rfl
  fits x hx y hy := by
    cases hy
    have hx : Type50.WF v x := hx
    exact hx.bonus_damage_resistance
  wf x hx _ _ y hy := by
    have hx : Type50.WF v x := hx
    exact { hx with bonus_damage_resistance := hy }
  splits x hx _ _ := by
    have hx : Type50.WF v x := hx
    refine ⟨fun i => .float i, .float, ?_⟩
    show Splits _ (fun y => Type50.layout v { x with bonus_damage_resistance := y }) _
    simp only [Type50.layout]
    walk Splits.here

theorem Type50.floatField_max_range (v : Version) : FloatField.OK (.record .Type50) v ⟨"max_range", fun (x : Genie.Type50) => some x.max_range, fun x y => { x with max_range := y }⟩ where
  self x y h := by cases h; rfl
  get_set _ _ := rfl
  fits x hx y hy := by
    cases hy
    have hx : Type50.WF v x := hx
    exact hx.max_range
  wf x hx _ _ y hy := by
    have hx : Type50.WF v x := hx
    exact { hx with max_range := hy }
  splits x hx _ _ := by
    have hx : Type50.WF v x := hx
    refine ⟨fun i => .float i, .float, ?_⟩
    show Splits _ (fun y => Type50.layout v { x with max_range := y }) _
    simp only [Type50.layout]
    walk Splits.here

theorem Type50.floatField_blast_width (v : Version) : FloatField.OK (.record .Type50) v ⟨"blast_width", fun (x : Genie.Type50) => some x.blast_width, fun x y => { x with blast_width := y }⟩ where
  self x y h := by cases h; rfl
  get_set _ _ := rfl
  fits x hx y hy := by
    cases hy
    have hx : Type50.WF v x := hx
    exact hx.blast_width
  wf x hx _ _ y hy := by
    have hx : Type50.WF v x := hx
    exact { hx with blast_width := hy }
  splits x hx _ _ := by
    have hx : Type50.WF v x := hx
    refine ⟨fun i => .float i, .float, ?_⟩
    show Splits _ (fun y => Type50.layout v { x with blast_width := y }) _
    simp only [Type50.layout]
    walk Splits.here

theorem Type50.floatField_reload_time (v : Version) : FloatField.OK (.record .Type50) v ⟨"reload_time", fun (x : Genie.Type50) => some x.reload_time, fun x y => { x with reload_time := y }⟩ where
  self x y h := by cases h; rfl
  get_set _ _ := rfl
  fits x hx y hy := by
    cases hy
    have hx : Type50.WF v x := hx
    exact hx.reload_time
  wf x hx _ _ y hy := by
    have hx : Type50.WF v x := hx
    exact { hx with reload_time := hy }
  splits x hx _ _ := by
    have hx : Type50.WF v x := hx
    refine ⟨fun i => .float i, .float, ?_⟩
    show Splits _ (fun y => Type50.layout v { x with reload_time := y }) _
    simp only [Type50.layout]
    walk Splits.here

theorem Type50.floatField_min_range (v : Version) : FloatField.OK (.record .Type50) v ⟨"min_range", fun (x : Genie.Type50) => some x.min_range, fun x y => { x with min_range := y }⟩ where
  self x y h := by cases h; rfl
  get_set _ _ := rfl
  fits x hx y hy := by
    cases hy
    have hx : Type50.WF v x := hx
    exact hx.min_range
  wf x hx _ _ y hy := by
    have hx : Type50.WF v x := hx
    exact { hx with min_range := hy }
  splits x hx _ _ := by
    have hx : Type50.WF v x := hx
    refine ⟨fun i => .float i, .float, ?_⟩
    show Splits _ (fun y => Type50.layout v { x with min_range := y }) _
    simp only [Type50.layout]
    walk Splits.here

theorem Type50.floatField_accuracy_dispersion (v : Version) : FloatField.OK (.record .Type50) v ⟨"accuracy_dispersion", fun (x : Genie.Type50) => some x.accuracy_dispersion, fun x y => { x with accuracy_dispersion := y }⟩ where
  self x y h := by cases h; rfl
  get_set _ _ := rfl
  fits x hx y hy := by
    cases hy
    have hx : Type50.WF v x := hx
    exact hx.accuracy_dispersion
  wf x hx _ _ y hy := by
    have hx : Type50.WF v x := hx
    exact { hx with accuracy_dispersion := hy }
  splits x hx _ _ := by
    have hx : Type50.WF v x := hx
    refine ⟨fun i => .float i, .float, ?_⟩
    show Splits _ (fun y => Type50.layout v { x with accuracy_dispersion := y }) _
    simp only [Type50.layout]
    walk Splits.here

theorem Type50.floatField_displayed_range (v : Version) : FloatField.OK (.record .Type50) v ⟨"displayed_range", fun (x : Genie.Type50) => some x.displayed_range, fun x y => { x with displayed_range := y }⟩ where
  self x y h := by cases h; rfl
  get_set _ _ := rfl
  fits x hx y hy := by
    cases hy
    have hx : Type50.WF v x := hx
    exact hx.displayed_range
  wf x hx _ _ y hy := by
    have hx : Type50.WF v x := hx
    exact { hx with displayed_range := hy }
  splits x hx _ _ := by
    have hx : Type50.WF v x := hx
    refine ⟨fun i => .float i, .float, ?_⟩
    show Splits _ (fun y => Type50.layout v { x with displayed_range := y }) _
    simp only [Type50.layout]
    walk Splits.here

theorem Type50.floatField_displayed_reload_time (v : Version) : FloatField.OK (.record .Type50) v ⟨"displayed_reload_time", fun (x : Genie.Type50) => some x.displayed_reload_time, fun x y => { x with displayed_reload_time := y }⟩ where
  self x y h := by cases h; rfl
  get_set _ _ := rfl
  fits x hx y hy := by
    cases hy
    have hx : Type50.WF v x := hx
    exact hx.displayed_reload_time
  wf x hx _ _ y hy := by
    have hx : Type50.WF v x := hx
    exact { hx with displayed_reload_time := hy }
  splits x hx _ _ := by
    have hx : Type50.WF v x := hx
    refine ⟨fun i => .float i, .float, ?_⟩
    show Splits _ (fun y => Type50.layout v { x with displayed_reload_time := y }) _
    simp only [Type50.layout]
    walk Splits.here

theorem Type50.floatField_blast_damage (v : Version) : FloatField.OK (.record .Type50) v ⟨"blast_damage", fun (x : Genie.Type50) => some x.blast_damage, fun x y => { x with blast_damage := y }⟩ where
  self x y h := by cases h; rfl
  get_set _ _ := rfl
  fits x hx y hy := by
    cases hy
    have hx : Type50.WF v x := hx
    exact hx.blast_damage
  wf x hx _ _ y hy := by
    have hx : Type50.WF v x := hx
    exact { hx with blast_damage := hy }
  splits x hx _ _ := by
    have hx : Type50.WF v x := hx
    refine ⟨fun i => .float i, .float, ?_⟩
    show Splits _ (fun y => Type50.layout v { x with blast_damage := y }) _
    simp only [Type50.layout]
    walk Splits.here

theorem Type50.floatField_damage_reflection (v : Version) (hv : 84 ≤ v.num) : FloatField.OK (.record .Type50) v ⟨"damage_reflection", fun (x : Genie.Type50) => some x.damage_reflection, fun x y => { x with damage_reflection := y }⟩ where
  self x y h := by cases h; rfl
  get_set _ _ := rfl
  fits x hx y hy := by
    cases hy
    have hx : Type50.WF v x := hx
    exact (hx.damage_reflection.of_ge' hv)
  wf x hx _ _ y hy := by
    have hx : Type50.WF v x := hx
    exact { hx with damage_reflection := Since.of_ge hv (hy) }
  splits x hx _ _ := by
    have hx : Type50.WF v x := hx
    refine ⟨fun i => .float i, .float, ?_⟩
    show Splits _ (fun y => Type50.layout v { x with damage_reflection := y }) _
    simp only [Type50.layout, since, if_pos hv]
    repeat (with_reducible apply Splits.tail)
    apply Splits.head
    walk Splits.here

theorem Type50.floatField_friendly_fire_damage (v : Version) (hv : 84 ≤ v.num) : FloatField.OK (.record .Type50) v ⟨"friendly_fire_damage", fun (x : Genie.Type50) => some x.friendly_fire_damage, fun x y => { x with friendly_fire_damage := y }⟩ where
  self x y h := by cases h; rfl
  get_set _ _ := rfl
  fits x hx y hy := by
    cases hy
    have hx : Type50.WF v x := hx
    exact (hx.friendly_fire_damage.of_ge' hv)
  wf x hx _ _ y hy := by
    have hx : Type50.WF v x := hx
    exact { hx with friendly_fire_damage := Since.of_ge hv (hy) }
  splits x hx _ _ := by
    have hx : Type50.WF v x := hx
    refine ⟨fun i => .float i, .float, ?_⟩
    show Splits _ (fun y => Type50.layout v { x with friendly_fire_damage := y }) _
    simp only [Type50.layout, since, if_pos hv]
    repeat (with_reducible apply Splits.tail)
    apply Splits.head
    walk Splits.here

theorem Type50.floatField_garrison_firepower (v : Version) (hv : 84 ≤ v.num) : FloatField.OK (.record .Type50) v ⟨"garrison_firepower", fun (x : Genie.Type50) => some x.garrison_firepower, fun x y => { x with garrison_firepower := y }⟩ where
  self x y h := by cases h; rfl
  get_set _ _ := rfl
  fits x hx y hy := by
    cases hy
    have hx : Type50.WF v x := hx
    exact (hx.garrison_firepower.of_ge' hv)
  wf x hx _ _ y hy := by
    have hx : Type50.WF v x := hx
    exact { hx with garrison_firepower := Since.of_ge hv (hy) }
  splits x hx _ _ := by
    have hx : Type50.WF v x := hx
    refine ⟨fun i => .float i, .float, ?_⟩
    show Splits _ (fun y => Type50.layout v { x with garrison_firepower := y }) _
    simp only [Type50.layout, since, if_pos hv]
    repeat (with_reducible apply Splits.tail)
    apply Splits.head
    walk Splits.here

theorem Type50.floatFields (v : Version) : ∀ f ∈ Node.floatFields v (.record .Type50), FloatField.OK (.record .Type50) v f :=
  forall_append (forall_cons (Type50.floatField_bonus_damage_resistance v) (forall_cons (Type50.floatField_max_range v) (forall_cons (Type50.floatField_blast_width v) (forall_cons (Type50.floatField_reload_time v) (forall_cons (Type50.floatField_min_range v) (forall_cons (Type50.floatField_accuracy_dispersion v) (forall_cons (Type50.floatField_displayed_range v) (forall_cons (Type50.floatField_displayed_reload_time v) (forall_cons (Type50.floatField_blast_damage v) (forall_nil)))))))))) (forall_ite fun hv => forall_cons (Type50.floatField_damage_reflection v hv) (forall_cons (Type50.floatField_friendly_fire_damage v hv) (forall_cons (Type50.floatField_garrison_firepower v hv) (forall_nil))))

theorem Projectile.floatField_projectile_arc (v : Version) : FloatField.OK (.record .Projectile) v ⟨"projectile_arc", fun (x : Genie.Projectile) => some x.projectile_arc, fun x y => { x with projectile_arc := y }⟩ where
  self x y h := by cases h; rfl
  get_set _ _ := rfl
  fits x hx y hy := by
    cases hy
    have hx : Projectile.WF v x := hx
    exact hx.projectile_arc
  wf x hx _ _ y hy := by
    have hx : Projectile.WF v x := hx
    exact { hx with projectile_arc := hy }
  splits x hx _ _ := by
    have hx : Projectile.WF v x := hx
    refine ⟨fun i => .packed .f (.float i), .f, ?_⟩
    show Splits _ (fun y => Projectile.layout v { x with projectile_arc := y }) _
    simp only [Projectile.layout_flat]
    walk Splits.here

theorem Projectile.floatFields (v : Version) : ∀ f ∈ Node.floatFields v (.record .Projectile), FloatField.OK (.record .Projectile) v f :=
  forall_cons (Projectile.floatField_projectile_arc v) (forall_nil)

theorem Creatable.floatField_rear_attack_modifier (v : Version) : FloatField.OK (.record .Creatable) v ⟨"rear_attack_modifier", fun (x : Genie.Creatable) => some x.rear_attack_modifier, fun x y => { x with rear_attack_modifier := y }⟩ where
  self x y h := by cases h; rfl
  get_set _ _ := rfl
  fits x hx y hy := by
    cases hy
    obtain ⟨hk, hx⟩ : ∃ hk, Creatable.WFWith v hk x := hx
    exact hx.rear_attack_modifier
  wf x hx _ _ y hy := by
    obtain ⟨hk, hx⟩ : ∃ hk, Creatable.WFWith v hk x := hx
    exact ⟨hk, { hx with rear_attack_modifier := hy }⟩
  splits x hx _ _ := by
    obtain ⟨hk, hx⟩ : ∃ hk, Creatable.WFWith v hk x := hx
    refine ⟨fun i => .packed .f (.float i), .f, ?_⟩
    show Splits _ (fun y => Creatable.layout v { x with rear_attack_modifier := y }) _
    obtain ⟨a0, a1, a2, ha⟩ := Exactly.three hx.projectile_spawning_area
    by_cases h88 : 88 ≤ v.num
    · refine Splits.congr ?_ (fun y _ => Creatable.layout_flat88 v { x with rear_attack_modifier := y } a0 a1 a2 ha h88)
      dsimp only
      walk Splits.here
    · obtain ⟨t, ht, -⟩ := hx.train_locations.of_lt' h88
      by_cases h84 : 84 ≤ v.num
      · refine Splits.congr ?_ (fun y _ => Creatable.layout_flat84 v { x with rear_attack_modifier := y } a0 a1 a2 ha h88 h84 t ht)
        dsimp only
        walk Splits.here
      · refine Splits.congr ?_ (fun y _ => Creatable.layout_flat77 v { x with rear_attack_modifier := y } a0 a1 a2 ha h88 h84 t ht)
        dsimp only
        walk Splits.here

theorem Creatable.floatField_flank_attack_modifier (v : Version) : FloatField.OK (.record .Creatable) v ⟨"flank_attack_modifier", fun (x : Genie.Creatable) => some x.flank_attack_modifier, fun x y => { x with flank_attack_modifier := y }⟩ where
  self x y h := by cases h; rfl
  get_set _ _ := rfl
  fits x hx y hy := by
    cases hy
    obtain ⟨hk, hx⟩ : ∃ hk, Creatable.WFWith v hk x := hx
    exact hx.flank_attack_modifier
  wf x hx _ _ y hy := by
    obtain ⟨hk, hx⟩ : ∃ hk, Creatable.WFWith v hk x := hx
    exact ⟨hk, { hx with flank_attack_modifier := hy }⟩
  splits x hx _ _ := by
    obtain ⟨hk, hx⟩ : ∃ hk, Creatable.WFWith v hk x := hx
    refine ⟨fun i => .packed .f (.float i), .f, ?_⟩
    show Splits _ (fun y => Creatable.layout v { x with flank_attack_modifier := y }) _
    obtain ⟨a0, a1, a2, ha⟩ := Exactly.three hx.projectile_spawning_area
    by_cases h88 : 88 ≤ v.num
    · refine Splits.congr ?_ (fun y _ => Creatable.layout_flat88 v { x with flank_attack_modifier := y } a0 a1 a2 ha h88)
      dsimp only
      walk Splits.here
    · obtain ⟨t, ht, -⟩ := hx.train_locations.of_lt' h88
      by_cases h84 : 84 ≤ v.num
      · refine Splits.congr ?_ (fun y _ => Creatable.layout_flat84 v { x with flank_attack_modifier := y } a0 a1 a2 ha h88 h84 t ht)
        dsimp only
        walk Splits.here
      · refine Splits.congr ?_ (fun y _ => Creatable.layout_flat77 v { x with flank_attack_modifier := y } a0 a1 a2 ha h88 h84 t ht)
        dsimp only
        walk Splits.here

theorem Creatable.floatField_max_charge (v : Version) : FloatField.OK (.record .Creatable) v ⟨"max_charge", fun (x : Genie.Creatable) => some x.max_charge, fun x y => { x with max_charge := y }⟩ where
  self x y h := by cases h; rfl
  get_set _ _ := rfl
  fits x hx y hy := by
    cases hy
    obtain ⟨hk, hx⟩ : ∃ hk, Creatable.WFWith v hk x := hx
    exact hx.max_charge
  wf x hx _ _ y hy := by
    obtain ⟨hk, hx⟩ : ∃ hk, Creatable.WFWith v hk x := hx
    exact ⟨hk, { hx with max_charge := hy }⟩
  splits x hx _ _ := by
    obtain ⟨hk, hx⟩ : ∃ hk, Creatable.WFWith v hk x := hx
    refine ⟨fun i => .packed .f (.float i), .f, ?_⟩
    show Splits _ (fun y => Creatable.layout v { x with max_charge := y }) _
    obtain ⟨a0, a1, a2, ha⟩ := Exactly.three hx.projectile_spawning_area
    by_cases h88 : 88 ≤ v.num
    · refine Splits.congr ?_ (fun y _ => Creatable.layout_flat88 v { x with max_charge := y } a0 a1 a2 ha h88)
      dsimp only
      walk Splits.here
    · obtain ⟨t, ht, -⟩ := hx.train_locations.of_lt' h88
      by_cases h84 : 84 ≤ v.num
      · refine Splits.congr ?_ (fun y _ => Creatable.layout_flat84 v { x with max_charge := y } a0 a1 a2 ha h88 h84 t ht)
        dsimp only
        walk Splits.here
      · refine Splits.congr ?_ (fun y _ => Creatable.layout_flat77 v { x with max_charge := y } a0 a1 a2 ha h88 h84 t ht)
        dsimp only
        walk Splits.here

theorem Creatable.floatField_recharge_rate (v : Version) : FloatField.OK (.record .Creatable) v ⟨"recharge_rate", fun (x : Genie.Creatable) => some x.recharge_rate, fun x y => { x with recharge_rate := y }⟩ where
  self x y h := by cases h; rfl
  get_set _ _ := rfl
  fits x hx y hy := by
    cases hy
    obtain ⟨hk, hx⟩ : ∃ hk, Creatable.WFWith v hk x := hx
    exact hx.recharge_rate
  wf x hx _ _ y hy := by
    obtain ⟨hk, hx⟩ : ∃ hk, Creatable.WFWith v hk x := hx
    exact ⟨hk, { hx with recharge_rate := hy }⟩
  splits x hx _ _ := by
    obtain ⟨hk, hx⟩ : ∃ hk, Creatable.WFWith v hk x := hx
    refine ⟨fun i => .packed .f (.float i), .f, ?_⟩
    show Splits _ (fun y => Creatable.layout v { x with recharge_rate := y }) _
    obtain ⟨a0, a1, a2, ha⟩ := Exactly.three hx.projectile_spawning_area
    by_cases h88 : 88 ≤ v.num
    · refine Splits.congr ?_ (fun y _ => Creatable.layout_flat88 v { x with recharge_rate := y } a0 a1 a2 ha h88)
      dsimp only
      walk Splits.here
    · obtain ⟨t, ht, -⟩ := hx.train_locations.of_lt' h88
      by_cases h84 : 84 ≤ v.num
      · refine Splits.congr ?_ (fun y _ => Creatable.layout_flat84 v { x with recharge_rate := y } a0 a1 a2 ha h88 h84 t ht)
        dsimp only
        walk Splits.here
      · refine Splits.congr ?_ (fun y _ => Creatable.layout_flat77 v { x with recharge_rate := y } a0 a1 a2 ha h88 h84 t ht)
        dsimp only
        walk Splits.here

theorem Creatable.floatField_invulnerability_level (v : Version) (hv : 84 ≤ v.num) : FloatField.OK (.record .Creatable) v ⟨"invulnerability_level", fun (x : Genie.Creatable) => some x.invulnerability_level, fun x y => { x with invulnerability_level := y }⟩ where
  self x y h := by cases h; rfl
  get_set _ _ := rfl
  fits x hx y hy := by
    cases hy
    obtain ⟨hk, hx⟩ : ∃ hk, Creatable.WFWith v hk x := hx
    exact (hx.invulnerability_level.of_ge' hv)
  wf x hx _ _ y hy := by
    obtain ⟨hk, hx⟩ : ∃ hk, Creatable.WFWith v hk x := hx
    exact ⟨hk, { hx with invulnerability_level := Since.of_ge hv (hy) }⟩
  splits x hx _ _ := by
    obtain ⟨hk, hx⟩ : ∃ hk, Creatable.WFWith v hk x := hx
    refine ⟨fun i => .packed .f (.float i), .f, ?_⟩
    show Splits _ (fun y => Creatable.layout v { x with invulnerability_level := y }) _
    obtain ⟨a0, a1, a2, ha⟩ := Exactly.three hx.projectile_spawning_area
    by_cases h88 : 88 ≤ v.num
    · refine Splits.congr ?_ (fun y _ => Creatable.layout_flat88 v { x with invulnerability_level := y } a0 a1 a2 ha h88)
      dsimp only
      walk Splits.here
    · obtain ⟨t, ht, -⟩ := hx.train_locations.of_lt' h88
      refine Splits.congr ?_ (fun y _ => Creatable.layout_flat84 v { x with invulnerability_level := y } a0 a1 a2 ha h88 hv t ht)
      dsimp only
      walk Splits.here

theorem Creatable.floatField_min_conversion_time_mod (v : Version) : FloatField.OK (.record .Creatable) v ⟨"min_conversion_time_mod", fun (x : Genie.Creatable) => some x.min_conversion_time_mod, fun x y => { x with min_conversion_time_mod := y }⟩ where
  self x y h := by cases h; rfl
  get_set _ _ := rfl
  fits x hx y hy := by
    cases hy
    obtain ⟨hk, hx⟩ : ∃ hk, Creatable.WFWith v hk x := hx
    exact hx.min_conversion_time_mod
  wf x hx _ _ y hy := by
    obtain ⟨hk, hx⟩ : ∃ hk, Creatable.WFWith v hk x := hx
    exact ⟨hk, { hx with min_conversion_time_mod := hy }⟩
  splits x hx _ _ := by
    obtain ⟨hk, hx⟩ : ∃ hk, Creatable.WFWith v hk x := hx
    refine ⟨fun i => .packed .f (.float i), .f, ?_⟩
    show Splits _ (fun y => Creatable.layout v { x with min_conversion_time_mod := y }) _
    obtain ⟨a0, a1, a2, ha⟩ := Exactly.three hx.projectile_spawning_area
    by_cases h88 : 88 ≤ v.num
    · refine Splits.congr ?_ (fun y _ => Creatable.layout_flat88 v { x with min_conversion_time_mod := y } a0 a1 a2 ha h88)
      dsimp only
      walk Splits.here
    · obtain ⟨t, ht, -⟩ := hx.train_locations.of_lt' h88
      by_cases h84 : 84 ≤ v.num
      · refine Splits.congr ?_ (fun y _ => Creatable.layout_flat84 v { x with min_conversion_time_mod := y } a0 a1 a2 ha h88 h84 t ht)
        dsimp only
        walk Splits.here
      · refine Splits.congr ?_ (fun y _ => Creatable.layout_flat77 v { x with min_conversion_time_mod := y } a0 a1 a2 ha h88 h84 t ht)
        dsimp only
        walk Splits.here

theorem Creatable.floatField_max_conversion_time_mod (v : Version) : FloatField.OK (.record .Creatable) v ⟨"max_conversion_time_mod", fun (x : Genie.Creatable) => some x.max_conversion_time_mod, fun x y => { x with max_conversion_time_mod := y }⟩ where
  self x y h := by cases h; rfl
  get_set _ _ := rfl
  fits x hx y hy := by
    cases hy
    obtain ⟨hk, hx⟩ : ∃ hk, Creatable.WFWith v hk x := hx
    exact hx.max_conversion_time_mod
  wf x hx _ _ y hy := by
    obtain ⟨hk, hx⟩ : ∃ hk, Creatable.WFWith v hk x := hx
    exact ⟨hk, { hx with max_conversion_time_mod := hy }⟩
  splits x hx _ _ := by
    obtain ⟨hk, hx⟩ : ∃ hk, Creatable.WFWith v hk x := hx
    refine ⟨fun i => .packed .f (.float i), .f, ?_⟩
    show Splits _ (fun y => Creatable.layout v { x with max_conversion_time_mod := y }) _
    obtain ⟨a0, a1, a2, ha⟩ := Exactly.three hx.projectile_spawning_area
    by_cases h88 : 88 ≤ v.num
    · refine Splits.congr ?_ (fun y _ => Creatable.layout_flat88 v { x with max_conversion_time_mod := y } a0 a1 a2 ha h88)
      dsimp only
      walk Splits.here
    · obtain ⟨t, ht, -⟩ := hx.train_locations.of_lt' h88
      by_cases h84 : 84 ≤ v.num
      · refine Splits.congr ?_ (fun y _ => Creatable.layout_flat84 v { x with max_conversion_time_mod := y } a0 a1 a2 ha h88 h84 t ht)
        dsimp only
        walk Splits.here
      · refine Splits.congr ?_ (fun y _ => Creatable.layout_flat77 v { x with max_conversion_time_mod := y } a0 a1 a2 ha h88 h84 t ht)
        dsimp only
        walk Splits.here

theorem Creatable.floatField_conversion_chance_mod (v : Version) : FloatField.OK (.record .Creatable) v ⟨"conversion_chance_mod", fun (x : Genie.Creatable) => some x.conversion_chance_mod, fun x y => { x with conversion_chance_mod := y }⟩ where
  self x y h := by cases h; rfl
  get_set _ _ := rfl
  fits x hx y hy := by
    cases hy
    obtain ⟨hk, hx⟩ : ∃ hk, Creatable.WFWith v hk x := hx
    exact hx.conversion_chance_mod
  wf x hx _ _ y hy := by
    obtain ⟨hk, hx⟩ : ∃ hk, Creatable.WFWith v hk x := hx
    exact ⟨hk, { hx with conversion_chance_mod := hy }⟩
  splits x hx _ _ := by
    obtain ⟨hk, hx⟩ : ∃ hk, Creatable.WFWith v hk x := hx
    refine ⟨fun i => .packed .f (.float i), .f, ?_⟩
    show Splits _ (fun y => Creatable.layout v { x with conversion_chance_mod := y }) _
    obtain ⟨a0, a1, a2, ha⟩ := Exactly.three hx.projectile_spawning_area
    by_cases h88 : 88 ≤ v.num
    · refine Splits.congr ?_ (fun y _ => Creatable.layout_flat88 v { x with conversion_chance_mod := y } a0 a1 a2 ha h88)
      dsimp only
      walk Splits.here
    · obtain ⟨t, ht, -⟩ := hx.train_locations.of_lt' h88
      by_cases h84 : 84 ≤ v.num
      · refine Splits.congr ?_ (fun y _ => Creatable.layout_flat84 v { x with conversion_chance_mod := y } a0 a1 a2 ha h88 h84 t ht)
        dsimp only
        walk Splits.here
      · refine Splits.congr ?_ (fun y _ => Creatable.layout_flat77 v { x with conversion_chance_mod := y } a0 a1 a2 ha h88 h84 t ht)
        dsimp only
        walk Splits.here

theorem Creatable.floatField_total_projectiles (v : Version) : FloatField.OK (.record .Creatable) v ⟨"total_projectiles", fun (x : Genie.Creatable) => some x.total_projectiles, fun x y => { x with total_projectiles := y }⟩ where
  self x y h := by cases h; rfl
  get_set _ _ := rfl
  fits x hx y hy := by
    cases hy
    obtain ⟨hk, hx⟩ : ∃ hk, Creatable.WFWith v hk x := hx
    exact hx.total_projectiles
  wf x hx _ _ y hy := by
    obtain ⟨hk, hx⟩ : ∃ hk, Creatable.WFWith v hk x := hx
    exact ⟨hk, { hx with total_projectiles := hy }⟩
  splits x hx _ _ := by
    obtain ⟨hk, hx⟩ : ∃ hk, Creatable.WFWith v hk x := hx
    refine ⟨fun i => .packed .f (.float i), .f, ?_⟩
    show Splits _ (fun y => Creatable.layout v { x with total_projectiles := y }) _
    obtain ⟨a0, a1, a2, ha⟩ := Exactly.three hx.projectile_spawning_area
    by_cases h88 : 88 ≤ v.num
    · refine Splits.congr ?_ (fun y _ => Creatable.layout_flat88 v { x with total_projectiles := y } a0 a1 a2 ha h88)
      dsimp only
      walk Splits.here
    · obtain ⟨t, ht, -⟩ := hx.train_locations.of_lt' h88
      by_cases h84 : 84 ≤ v.num
      · refine Splits.congr ?_ (fun y _ => Creatable.layout_flat84 v { x with total_projectiles := y } a0 a1 a2 ha h88 h84 t ht)
        dsimp only
        walk Splits.here
      · refine Splits.congr ?_ (fun y _ => Creatable.layout_flat77 v { x with total_projectiles := y } a0 a1 a2 ha h88 h84 t ht)
        dsimp only
        walk Splits.here

theorem Creatable.floatFields (v : Version) : ∀ f ∈ Node.floatFields v (.record .Creatable), FloatField.OK (.record .Creatable) v f :=
  forall_append (forall_cons (Creatable.floatField_rear_attack_modifier v) (forall_cons (Creatable.floatField_flank_attack_modifier v) (forall_cons (Creatable.floatField_max_charge v) (forall_cons (Creatable.floatField_recharge_rate v) (forall_cons (Creatable.floatField_min_conversion_time_mod v) (forall_cons (Creatable.floatField_max_conversion_time_mod v) (forall_cons (Creatable.floatField_conversion_chance_mod v) (forall_cons (Creatable.floatField_total_projectiles v) (forall_nil))))))))) (forall_ite fun hv => forall_cons (Creatable.floatField_invulnerability_level v hv) (forall_nil))

theorem BuildingAnnex.floatField_misplacement_x (v : Version) : FloatField.OK (.record .BuildingAnnex) v ⟨"misplacement_x", fun (x : Genie.BuildingAnnex) => some x.misplacement_x, fun x y => { x with misplacement_x := y }⟩ where
  self x y h := by cases h; rfl
  get_set _ _ := rfl
  fits x hx y hy := by
    cases hy
    have hx : BuildingAnnex.WF v x := hx
    exact hx.misplacement_x
  wf x hx _ _ y hy := by
    have hx : BuildingAnnex.WF v x := hx
    exact { hx with misplacement_x := hy }
  splits x hx _ _ := by
    have hx : BuildingAnnex.WF v x := hx
    refine ⟨fun i => .packed .f (.float i), .f, ?_⟩
    show Splits _ (fun y => BuildingAnnex.layout v { x with misplacement_x := y }) _
    simp only [BuildingAnnex.layout_flat]
    walk Splits.here

theorem BuildingAnnex.floatField_misplacement_y (v : Version) : FloatField.OK (.record .BuildingAnnex) v ⟨"misplacement_y", fun (x : Genie.BuildingAnnex) => some x.misplacement_y, fun x y => { x with misplacement_y := y }⟩ where
  self x y h := by cases h; rfl
  get_set _ _ := rfl
  fits x hx y hy := by
    cases hy
    have hx : BuildingAnnex.WF v x := hx
    exact hx.misplacement_y
  wf x hx _ _ y hy := by
    have hx : BuildingAnnex.WF v x := hx
    exact { hx with misplacement_y := hy }
  splits x hx _ _ := by
    have hx : BuildingAnnex.WF v x := hx
    refine ⟨fun i => .packed .f (.float i), .f, ?_⟩
    show Splits _ (fun y => BuildingAnnex.layout v { x with misplacement_y := y }) _
    simp only [BuildingAnnex.layout_flat]
    walk Splits.here

theorem BuildingAnnex.floatFields (v : Version) : ∀ f ∈ Node.floatFields v (.record .BuildingAnnex), FloatField.OK (.record .BuildingAnnex) v f :=
  forall_cons (BuildingAnnex.floatField_misplacement_x v) (forall_cons (BuildingAnnex.floatField_misplacement_y v) (forall_nil))

theorem Building.floatField_garrison_heal_rate (v : Version) : FloatField.OK (.record .Building) v ⟨"garrison_heal_rate", fun (x : Genie.Building) => some x.garrison_heal_rate, fun x y => { x with garrison_heal_rate := y }⟩ where
  self x y h := by cases h; rfl
  get_set _ _ := rfl
  fits x hx y hy := by
    cases hy
    have hx : Building.WF v x := hx
    exact hx.garrison_heal_rate
  wf x hx _ _ y hy := by
    have hx : Building.WF v x := hx
    exact { hx with garrison_heal_rate := hy }
  splits x hx _ _ := by
    have hx : Building.WF v x := hx
    refine ⟨fun i => .packed .f (.float i), .f, ?_⟩
    show Splits _ (fun y => Building.layout v { x with garrison_heal_rate := y }) _
    obtain ⟨l0, l1, l2, l3, l4, l5, hl⟩ := Exactly.six hx.looting_table
    refine Splits.congr ?_ (fun y _ => Building.layout_flat v { x with garrison_heal_rate := y } l0 l1 l2 l3 l4 l5 hl)
    dsimp only
    walk Splits.here

theorem Building.floatField_garrison_repair_rate (v : Version) : FloatField.OK (.record .Building) v ⟨"garrison_repair_rate", fun (x : Genie.Building) => some x.garrison_repair_rate, fun x y => { x with garrison_repair_rate := y }⟩ where
  self x y h := by cases h; rfl
  get_set _ _ := rfl
  fits x hx y hy := by
    cases hy
    have hx : Building.WF v x := hx
    exact hx.garrison_repair_rate
  wf x hx _ _ y hy := by
    have hx : Building.WF v x := hx
    exact { hx with garrison_repair_rate := hy }
  splits x hx _ _ := by
    have hx : Building.WF v x := hx
    refine ⟨fun i => .packed .f (.float i), .f, ?_⟩
    show Splits _ (fun y => Building.layout v { x with garrison_repair_rate := y }) _
    obtain ⟨l0, l1, l2, l3, l4, l5, hl⟩ := Exactly.six hx.looting_table
    refine Splits.congr ?_ (fun y _ => Building.layout_flat v { x with garrison_repair_rate := y } l0 l1 l2 l3 l4 l5 hl)
    dsimp only
    walk Splits.here

theorem Building.floatFields (v : Version) : ∀ f ∈ Node.floatFields v (.record .Building), FloatField.OK (.record .Building) v f :=
  forall_cons (Building.floatField_garrison_heal_rate v) (forall_cons (Building.floatField_garrison_repair_rate v) (forall_nil))

theorem Unit.floatField_line_of_sight (v : Version) : FloatField.OK (.record .Unit) v ⟨"line_of_sight", fun (x : Genie.Unit) => some x.line_of_sight, fun x y => { x with line_of_sight := y }⟩ where
  self x y h := by cases h; rfl
  get_set _ _ := rfl
  fits x hx y hy := by
    cases hy
    have hx : Unit.WF v x := hx
    exact hx.line_of_sight
  wf x hx _ _ y hy := by
    have hx : Unit.WF v x := hx
    exact { hx with line_of_sight := hy }
  splits x hx _ _ := by
    have hx : Unit.WF v x := hx
    refine ⟨fun i => .packed .f (.float i), .f, ?_⟩
    show Splits _ (fun y => Unit.layout v { x with line_of_sight := y }) _
    obtain ⟨s0, s1, hs⟩ := Exactly.two hx.standing_graphic
    obtain ⟨p0, p1, hp⟩ := Exactly.two hx.placement_side_terrain
    obtain ⟨q0, q1, hq⟩ := Exactly.two hx.placement_terrain
    obtain ⟨c0, c1, hc⟩ := Exactly.two hx.clearance_size
    by_cases hv : 88 ≤ v.num
    · refine Splits.congr ?_ (fun y _ => Unit.layout_flat88 v { x with line_of_sight := y } s0 s1 p0 p1 q0 q1 c0 c1 hs hp hq hc hv)
      dsimp only
      walk Splits.here
    · refine Splits.congr ?_ (fun y _ => Unit.layout_flat84 v { x with line_of_sight := y } s0 s1 p0 p1 q0 q1 c0 c1 hs hp hq hc hv)
      dsimp only
      walk Splits.here

theorem Unit.floatField_collision_size_x (v : Version) : FloatField.OK (.record .Unit) v ⟨"collision_size_x", fun (x : Genie.Unit) => some x.collision_size_x, fun x y => { x with collision_size_x := y }⟩ where
  self x y h := by cases h; rfl
  get_set _ _ := rfl
  fits x hx y hy := by
    cases hy
    have hx : Unit.WF v x := hx
    exact hx.collision_size_x
  wf x hx _ _ y hy := by
    have hx : Unit.WF v x := hx
    exact { hx with collision_size_x := hy }
  splits x hx _ _ := by
    have hx : Unit.WF v x := hx
    refine ⟨fun i => .packed .f (.float i), .f, ?_⟩
    show Splits _ (fun y => Unit.layout v { x with collision_size_x := y }) _
    obtain ⟨s0, s1, hs⟩ := Exactly.two hx.standing_graphic
    obtain ⟨p0, p1, hp⟩ := Exactly.two hx.placement_side_terrain
    obtain ⟨q0, q1, hq⟩ := Exactly.two hx.placement_terrain
    obtain ⟨c0, c1, hc⟩ := Exactly.two hx.clearance_size
    by_cases hv : 88 ≤ v.num
    · refine Splits.congr ?_ (fun y _ => Unit.layout_flat88 v { x with collision_size_x := y } s0 s1 p0 p1 q0 q1 c0 c1 hs hp hq hc hv)
      dsimp only
      walk Splits.here
    · refine Splits.congr ?_ (fun y _ => Unit.layout_flat84 v { x with collision_size_x := y } s0 s1 p0 p1 q0 q1 c0 c1 hs hp hq hc hv)
      dsimp only
      walk Splits.here

theorem Unit.floatField_collision_size_y (v : Version) : FloatField.OK (.record .Unit) v ⟨"collision_size_y", fun (x : Genie.Unit) => some x.collision_size_y, fun x y => { x with collision_size_y := y }⟩ where
  self x y h := by cases h; rfl
  get_set _ _ := rfl
  fits x hx y hy := by
    cases hy
    have hx : Unit.WF v x := hx
    exact hx.collision_size_y
  wf x hx _ _ y hy := by
    have hx : Unit.WF v x := hx
    exact { hx with collision_size_y := hy }
  splits x hx _ _ := by
    have hx : Unit.WF v x := hx
    refine ⟨fun i => .packed .f (.float i), .f, ?_⟩
    show Splits _ (fun y => Unit.layout v { x with collision_size_y := y }) _
    obtain ⟨s0, s1, hs⟩ := Exactly.two hx.standing_graphic
    obtain ⟨p0, p1, hp⟩ := Exactly.two hx.placement_side_terrain
    obtain ⟨q0, q1, hq⟩ := Exactly.two hx.placement_terrain
    obtain ⟨c0, c1, hc⟩ := Exactly.two hx.clearance_size
    by_cases hv : 88 ≤ v.num
    · refine Splits.congr ?_ (fun y _ => Unit.layout_flat88 v { x with collision_size_y := y } s0 s1 p0 p1 q0 q1 c0 c1 hs hp hq hc hv)
      dsimp only
      walk Splits.here
    · refine Splits.congr ?_ (fun y _ => Unit.layout_flat84 v { x with collision_size_y := y } s0 s1 p0 p1 q0 q1 c0 c1 hs hp hq hc hv)
      dsimp only
      walk Splits.here

theorem Unit.floatField_collision_size_z (v : Version) : FloatField.OK (.record .Unit) v ⟨"collision_size_z", fun (x : Genie.Unit) => some x.collision_size_z, fun x y => { x with collision_size_z := y }⟩ where
  self x y h := by cases h; rfl
  get_set _ _ := rfl
  fits x hx y hy := by
    cases hy
    have hx : Unit.WF v x := hx
    exact hx.collision_size_z
  wf x hx _ _ y hy := by
    have hx : Unit.WF v x := hx
    exact { hx with collision_size_z := hy }
  splits x hx _ _ := by
    have hx : Unit.WF v x := hx
    refine ⟨fun i => .packed .f (.float i), .f, ?_⟩
    show Splits _ (fun y => Unit.layout v { x with collision_size_z := y }) _
    obtain ⟨s0, s1, hs⟩ := Exactly.two hx.standing_graphic
    obtain ⟨p0, p1, hp⟩ := Exactly.two hx.placement_side_terrain
    obtain ⟨q0, q1, hq⟩ := Exactly.two hx.placement_terrain
    obtain ⟨c0, c1, hc⟩ := Exactly.two hx.clearance_size
    by_cases hv : 88 ≤ v.num
    · refine Splits.congr ?_ (fun y _ => Unit.layout_flat88 v { x with collision_size_z := y } s0 s1 p0 p1 q0 q1 c0 c1 hs hp hq hc hv)
      dsimp only
      walk Splits.here
    · refine Splits.congr ?_ (fun y _ => Unit.layout_flat84 v { x with collision_size_z := y } s0 s1 p0 p1 q0 q1 c0 c1 hs hp hq hc hv)
      dsimp only
      walk Splits.here

theorem Unit.floatField_resource_decay (v : Version) : FloatField.OK (.record .Unit) v ⟨"resource_decay", fun (x : Genie.Unit) => some x.resource_decay, fun x y => { x with resource_decay := y }⟩ where
  self x y h := by cases h; rfl
  get_set _ _ := rfl
  fits x hx y hy := by
    cases hy
    have hx : Unit.WF v x := hx
    exact hx.resource_decay
  wf x hx _ _ y hy := by
    have hx : Unit.WF v x := hx
    exact { hx with resource_decay := hy }
  splits x hx _ _ := by
    have hx : Unit.WF v x := hx
    refine ⟨fun i => .packed .f (.float i), .f, ?_⟩
    show Splits _ (fun y => Unit.layout v { x with resource_decay := y }) _
    obtain ⟨s0, s1, hs⟩ := Exactly.two hx.standing_graphic
    obtain ⟨p0, p1, hp⟩ := Exactly.two hx.placement_side_terrain
    obtain ⟨q0, q1, hq⟩ := Exactly.two hx.placement_terrain
    obtain ⟨c0, c1, hc⟩ := Exactly.two hx.clearance_size
    by_cases hv : 88 ≤ v.num
    · refine Splits.congr ?_ (fun y _ => Unit.layout_flat88 v { x with resource_decay := y } s0 s1 p0 p1 q0 q1 c0 c1 hs hp hq hc hv)
      dsimp only
      walk Splits.here
    · refine Splits.congr ?_ (fun y _ => Unit.layout_flat84 v { x with resource_decay := y } s0 s1 p0 p1 q0 q1 c0 c1 hs hp hq hc hv)
      dsimp only
      walk Splits.here

theorem Unit.floatField_multiple_attribute_mode (v : Version) : FloatField.OK (.record .Unit) v ⟨"multiple_attribute_mode", fun (x : Genie.Unit) => some x.multiple_attribute_mode, fun x y => { x with multiple_attribute_mode := y }⟩ where
  self x y h := by cases h; rfl
  get_set _ _ := rfl
  fits x hx y hy := by
    cases hy
    have hx : Unit.WF v x := hx
    exact hx.multiple_attribute_mode
  wf x hx _ _ y hy := by
    have hx : Unit.WF v x := hx
    exact { hx with multiple_attribute_mode := hy }
  splits x hx _ _ := by
    have hx : Unit.WF v x := hx
    refine ⟨fun i => .packed .f (.float i), .f, ?_⟩
    show Splits _ (fun y => Unit.layout v { x with multiple_attribute_mode := y }) _
    obtain ⟨s0, s1, hs⟩ := Exactly.two hx.standing_graphic
    obtain ⟨p0, p1, hp⟩ := Exactly.two hx.placement_side_terrain
    obtain ⟨q0, q1, hq⟩ := Exactly.two hx.placement_terrain
    obtain ⟨c0, c1, hc⟩ := Exactly.two hx.clearance_size
    by_cases hv : 88 ≤ v.num
    · refine Splits.congr ?_ (fun y _ => Unit.layout_flat88 v { x with multiple_attribute_mode := y } s0 s1 p0 p1 q0 q1 c0 c1 hs hp hq hc hv)
      dsimp only
      walk Splits.here
    · refine Splits.congr ?_ (fun y _ => Unit.layout_flat84 v { x with multiple_attribute_mode := y } s0 s1 p0 p1 q0 q1 c0 c1 hs hp hq hc hv)
      dsimp only
      walk Splits.here

theorem Unit.floatField_outline_size_x (v : Version) : FloatField.OK (.record .Unit) v ⟨"outline_size_x", fun (x : Genie.Unit) => some x.outline_size_x, fun x y => { x with outline_size_x := y }⟩ where
  self x y h := by cases h; rfl
  get_set _ _ := rfl
  fits x hx y hy := by
    cases hy
    have hx : Unit.WF v x := hx
    exact hx.outline_size_x
  wf x hx _ _ y hy := by
    have hx : Unit.WF v x := hx
    exact { hx with outline_size_x := hy }
  splits x hx _ _ := by
    have hx : Unit.WF v x := hx
    refine ⟨fun i => .packed .f (.float i), .f, ?_⟩
    show Splits _ (fun y => Unit.layout v { x with outline_size_x := y }) _
    obtain ⟨s0, s1, hs⟩ := Exactly.two hx.standing_graphic
    obtain ⟨p0, p1, hp⟩ := Exactly.two hx.placement_side_terrain
    obtain ⟨q0, q1, hq⟩ := Exactly.two hx.placement_terrain
    obtain ⟨c0, c1, hc⟩ := Exactly.two hx.clearance_size
    by_cases hv : 88 ≤ v.num
    · refine Splits.congr ?_ (fun y _ => Unit.layout_flat88 v { x with outline_size_x := y } s0 s1 p0 p1 q0 q1 c0 c1 hs hp hq hc hv)
      dsimp only
      walk Splits.here
    · refine Splits.congr ?_ (fun y _ => Unit.layout_flat84 v { x with outline_size_x := y } s0 s1 p0 p1 q0 q1 c0 c1 hs hp hq hc hv)
      dsimp only
      walk Splits.here

theorem Unit.floatField_outline_size_y (v : Version) : FloatField.OK (.record .Unit) v ⟨"outline_size_y", fun (x : Genie.Unit) => some x.outline_size_y, fun x y => { x with outline_size_y := y }⟩ where
  self x y h := by cases h; rfl
  get_set _ _ := rfl
  fits x hx y hy := by
    cases hy
    have hx : Unit.WF v x := hx
    exact hx.outline_size_y
  wf x hx _ _ y hy := by
    have hx : Unit.WF v x := hx
    exact { hx with outline_size_y := hy }
  splits x hx _ _ := by
    have hx : Unit.WF v x := hx
    refine ⟨fun i => .packed .f (.float i), .f, ?_⟩
    show Splits _ (fun y => Unit.layout v { x with outline_size_y := y }) _
    obtain ⟨s0, s1, hs⟩ := Exactly.two hx.standing_graphic
    obtain ⟨p0, p1, hp⟩ := Exactly.two hx.placement_side_terrain
    obtain ⟨q0, q1, hq⟩ := Exactly.two hx.placement_terrain
    obtain ⟨c0, c1, hc⟩ := Exactly.two hx.clearance_size
    by_cases hv : 88 ≤ v.num
    · refine Splits.congr ?_ (fun y _ => Unit.layout_flat88 v { x with outline_size_y := y } s0 s1 p0 p1 q0 q1 c0 c1 hs hp hq hc hv)
      dsimp only
      walk Splits.here
    · refine Splits.congr ?_ (fun y _ => Unit.layout_flat84 v { x with outline_size_y := y } s0 s1 p0 p1 q0 q1 c0 c1 hs hp hq hc hv)
      dsimp only
      walk Splits.here

theorem Unit.floatField_outline_size_z (v : Version) : FloatField.OK (.record .Unit) v ⟨"outline_size_z", fun (x : Genie.Unit) => some x.outline_size_z, fun x y => { x with outline_size_z := y }⟩ where
  self x y h := by cases h; rfl
  get_set _ _ := rfl
  fits x hx y hy := by
    cases hy
    have hx : Unit.WF v x := hx
    exact hx.outline_size_z
  wf x hx _ _ y hy := by
    have hx : Unit.WF v x := hx
    exact { hx with outline_size_z := hy }
  splits x hx _ _ := by
    have hx : Unit.WF v x := hx
    refine ⟨fun i => .packed .f (.float i), .f, ?_⟩
    show Splits _ (fun y => Unit.layout v { x with outline_size_z := y }) _
    obtain ⟨s0, s1, hs⟩ := Exactly.two hx.standing_graphic
    obtain ⟨p0, p1, hp⟩ := Exactly.two hx.placement_side_terrain
    obtain ⟨q0, q1, hq⟩ := Exactly.two hx.placement_terrain
    obtain ⟨c0, c1, hc⟩ := Exactly.two hx.clearance_size
    by_cases hv : 88 ≤ v.num
    · refine Splits.congr ?_ (fun y _ => Unit.layout_flat88 v { x with outline_size_z := y } s0 s1 p0 p1 q0 q1 c0 c1 hs hp hq hc hv)
      dsimp only
      walk Splits.here
    · refine Splits.congr ?_ (fun y _ => Unit.layout_flat84 v { x with outline_size_z := y } s0 s1 p0 p1 q0 q1 c0 c1 hs hp hq hc hv)
      dsimp only
      walk Splits.here

theorem Unit.floatField_speed (v : Version) : FloatField.OK (.record .Unit) v ⟨"speed", fun (x : Genie.Unit) => x.speed, fun x y => { x with speed := some y }⟩ where
  self x y h := by
    have h : x.speed = some y := h
    show { x with speed := some y } = x
    rw [← h]
  get_set _ _ := rfl
  fits x hx y hy := (show Unit.WF v x from hx).speed.2 y hy
  wf x hx y hy i hi := by
    have hx : Unit.WF v x := hx
    exact { hx with speed := PresentIff.set hx.speed hy hi }
  splits x hx y hy := by
    have hx : Unit.WF v x := hx
    have hc := hx.speed.1.2 (by rw [show x.speed = some y from hy]; rfl)
    refine ⟨fun i => .float i, .float, ?_⟩
    show Splits _ (fun y => Unit.layout v { x with speed := some y }) _
    simp only [Unit.layout_eq]
    walk (Splits.partFrom hc)

theorem Unit.floatFields (v : Version) : ∀ f ∈ Node.floatFields v (.record .Unit), FloatField.OK (.record .Unit) v f :=
  forall_cons (Unit.floatField_line_of_sight v) (forall_cons (Unit.floatField_collision_size_x v) (forall_cons (Unit.floatField_collision_size_y v) (forall_cons (Unit.floatField_collision_size_z v) (forall_cons (Unit.floatField_resource_decay v) (forall_cons (Unit.floatField_multiple_attribute_mode v) (forall_cons (Unit.floatField_outline_size_x v) (forall_cons (Unit.floatField_outline_size_y v) (forall_cons (Unit.floatField_outline_size_z v) (forall_cons (Unit.floatField_speed v) (forall_nil))))))))))

theorem Node.floatFields_ok (v : Version) (n : Node) : ∀ f ∈ n.floatFields v, FloatField.OK n v f := by
  match n with
  | .record .EffectCommand => exact EffectCommand.floatFields v
  | .record .Graphic => exact Graphic.floatFields v
  | .record .Terrain => exact Terrain.floatFields v
  | .record .TerrainBlock => exact TerrainBlock.floatFields v
  | .record .ResourceStorage => exact ResourceStorage.floatFields v
  | .record .DeadFish => exact DeadFish.floatFields v
  | .record .Task => exact Task.floatFields v
  | .record .Bird => exact Bird.floatFields v
  | .record .Type50 => exact Type50.floatFields v
  | .record .Projectile => exact Projectile.floatFields v
  | .record .Creatable => exact Creatable.floatFields v
  | .record .BuildingAnnex => exact BuildingAnnex.floatFields v
  | .record .Building => exact Building.floatFields v
  | .record .Unit => exact Unit.floatFields v
  | .record .Effect => exact forall_nil
  | .record .SoundItem => exact forall_nil
  | .record .Sound => exact forall_nil
  | .record .PlayerColour => exact forall_nil
  | .record .GraphicDelta => exact forall_nil
  | .record .GraphicAngleSound => exact forall_nil
  | .record .TerrainPassGraphic => exact forall_nil
  | .record .FrameData => exact forall_nil
  | .record .TileSize => exact forall_nil
  | .record .MapUnit => exact forall_nil
  | .record .MapTerrain => exact forall_nil
  | .record .MapLand => exact forall_nil
  | .record .MapElevation => exact forall_nil
  | .record .MapInfo => exact forall_nil
  | .record .RandomMaps => exact forall_nil
  | .record .ResearchResourceCost => exact forall_nil
  | .record .ResearchLocation => exact forall_nil
  | .record .Tech => exact forall_nil
  | .record .Common => exact forall_nil
  | .record .TechTreeAge => exact forall_nil
  | .record .BuildingConnection => exact forall_nil
  | .record .UnitConnection => exact forall_nil
  | .record .ResearchConnection => exact forall_nil
  | .record .TechTree => exact forall_nil
  | .record .DamageGraphic => exact forall_nil
  | .record .AttackOrArmor => exact forall_nil
  | .record .ResourceCost => exact forall_nil
  | .record .TrainLocation => exact forall_nil
  | .record .UnitHeaders => exact forall_nil
  | .record .Civ => exact forall_nil
  | .record (.TerrainRestriction k) => exact forall_nil
  | .file => exact forall_nil

end Genie
